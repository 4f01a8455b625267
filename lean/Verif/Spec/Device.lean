import Verif.Spec.Frame
import Verif.Spec.Rtcm
import Verif.Model.Device

/-!
# What the whole driver should do: mixed streams, the RTK link
-/

namespace Ublox

/-- A message a receiver may send: a UBX message, or an RTCM3 frame. -/
inductive Msg where
  | ubx (cls id : Byte) (payload : List Byte)
  | rtcm (frame : List Byte)

/-- Its bytes on the wire. -/
def Msg.bytes : Msg → List Byte
  | .ubx c i p => ubxFrame c i p
  | .rtcm f => f

/-- It is well formed, and of a size the driver can take. -/
def Msg.WF : Msg → Prop
  | .ubx _ _ p => 1 ≤ p.length ∧ p.length ≤ 2048
  | .rtcm f => ∃ p, RtcmFrame p f ∧ 1 ≤ p.length ∧ p.length ≤ 1018

/-- The RTCM3 frame, if it is one. -/
def Msg.rtcm? : Msg → Option (List Byte)
  | .rtcm f => some f
  | .ubx .. => none

/-- All the bytes of a sequence of messages. -/
def wire (ms : List Msg) : List Byte := ms.flatMap Msg.bytes

/-- How a mixed stream ends: nothing open (with the last byte the UBX parser saw), or inside a message. -/
inductive MixTail where
  | idle (last : Byte)
  /-- bytes after the start sequence -/
  | ubx (bytes : List Byte)
  /-- bytes from the preamble on -/
  | rtcm (bytes : List Byte)

open Classical in
/-- Split a mixed stream into its good messages.  Outside messages, `B5 62` opens a UBX frame and `D3` an RTCM3 frame;
a frame extends over its announced length and nothing inside it is looked at.  Bad checksums are dropped; a UBX length
above 2048 or an RTCM3 length 0 ends the frame right after the length field; a UBX frame announcing length 0 never
ends (that is what the code does, see C07 and C72).  `prev` is the last byte seen by the UBX parser, which does not see
the inside of RTCM3 frames. -/
noncomputable def demux (prev : Byte) (s : List Byte) : List Msg × MixTail :=
  match s with
  | [] => ([], .idle prev)
  | b :: rest =>
    if prev = 0xB5 ∧ b = 0x62 then
      match rest with
      | cls :: id :: lo :: hi :: rest' =>
        let len := lo.toNat + 256 * hi.toNat
        if 2048 < len then demux hi rest'
        else if len = 0 then ([], .ubx rest)
        else
          match _h : rest'.drop len with
          | a :: c :: rest'' =>
            let body := cls :: id :: lo :: hi :: rest'.take len
            let r := demux c rest''
            (if a = fletcherA body ∧ c = fletcherB body then .ubx cls id (rest'.take len) :: r.1 else r.1, r.2)
          | _ => ([], .ubx rest)
      | _ => ([], .ubx rest)
    else if b = 0xD3 then
      match rest with
      | b1 :: b2 :: rest' =>
        if rtcmLen b1 b2 = 0 then demux 0xD3 rest'
        else if rtcmLen b1 b2 + 3 ≤ rest'.length then
          let f := b :: b1 :: b2 :: rest'.take (rtcmLen b1 b2 + 3)
          let r := demux 0xD3 (rest'.drop (rtcmLen b1 b2 + 3))
          (if CrcValid f then .rtcm f :: r.1 else r.1, r.2)
        else ([], .rtcm (b :: rest))
      | _ => ([], .rtcm (b :: rest))
    else demux b rest
termination_by s.length
decreasing_by
  all_goals simp only [List.length_cons, List.length_drop]
  · omega
  · have h2 := congrArg List.length _h
    simp only [List.length_drop, List.length_cons] at h2
    omega
  all_goals omega

/-- The buffers written to RTK interfaces, with the interface. -/
def Eff.rtk? : Eff → Option (Nat × List Byte)
  | .toRtk i b => some (i, b)
  | _ => none

/-- The bytes written to the receiver. -/
def Eff.receiver? : Eff → Option (List Byte)
  | .toReceiver b => some b
  | _ => none

/-- The calls of ephemeris callbacks. -/
def Eff.nav? : Eff → Option Nav.NavCall
  | .nav c => some c
  | _ => none

/-- The calls of the user's listeners. -/
def Eff.user? : Eff → Option (Nat × Byte × Byte × List Byte)
  | .ubx l c i m => some (l, c, i, m)
  | _ => none

end Ublox

namespace Ublox
namespace Dev

/-- The user's listeners registered by these events, in order. -/
def registered (evs : List Ev) : List Nat :=
  evs.filterMap fun
    | .listen l => some l
    | _ => none

/-- Has listener `l` subscribed to messages `(c, i)`? -/
def Subscribed (evs : List Ev) (l : Nat) (c i : Byte) : Prop := .subscribe l c i ∈ evs

deriving instance DecidableEq for Ev

instance (evs : List Ev) (l : Nat) (c i : Byte) : Decidable (Subscribed evs l c i) :=
  inferInstanceAs (Decidable (_ ∈ _))

/-- The role given by the last configuration call and the interface it named. -/
def configured (evs : List Ev) : Role × Option Nat :=
  evs.foldl (fun s e => match e with
    | .configBase i _ => (.base, some i)
    | .configRover i => (.rover, some i)
    | _ => s) (.none, none)

/-- Number of `config_base` calls. -/
def baseCalls (evs : List Ev) : Nat :=
  evs.countP fun
    | .configBase .. => true
    | _ => false

/-- The user's listeners that get a UBX message `(c, i)`: registered and subscribed, in order of registration. -/
def recipients (evs : List Ev) (c i : Byte) : List Nat := (registered evs).filter fun l => Subscribed evs l c i

/-- The RTK interfaces to which each good RTCM3 frame from the receiver is written: that of the last configuration call,
if it was `config_base`, once for each `config_base` call made so far (see C34). -/
def links (evs : List Ev) : List Nat :=
  match configured evs with
  | (.base, some i) => List.replicate (baseCalls evs) i
  | _ => []

/-- What a sequence of good messages shows, with listeners `rcv` and RTK interfaces `lk`, and what it does to the
navigation parser: for a UBX message every listener is called with a 2048-byte buffer that begins with the payload; an
RXM-SFRBX message goes to the navigation parser first; an RTCM3 frame is written unchanged to the interfaces. -/
inductive Shows (md : Nav.Mode) (rcv : Byte → Byte → List Nat) (lk : List Nat) :
    Nav.Nav → List Msg → Nav.Nav → List Eff → Prop where
  | nil {n} : Shows md rcv lk n [] n []
  | rtcm {n n' : Nav.Nav} {f : List Byte} {ms : List Msg} {es : List Eff} : Shows md rcv lk n ms n' es →
      Shows md rcv lk n (.rtcm f :: ms) n' ((lk.map fun i => .toRtk i f) ++ es)
  | ubx {n n' : Nav.Nav} {c i : Byte} {p buf : List Byte} {ms : List Msg} {es : List Eff} : ¬ (c = 0x02 ∧ i = 0x13) →
      buf.length = 2048 → buf.take p.length = p → Shows md rcv lk n ms n' es →
      Shows md rcv lk n (.ubx c i p :: ms) n' (((rcv c i).map fun l => .ubx l c i buf) ++ es)
  | sfrbx {n n1 n' : Nav.Nav} {p buf : List Byte} {cs : List Nav.NavCall} {ms : List Msg} {es : List Eff} :
      buf.length = 2048 → buf.take p.length = p →
      n.step md (.sfrbx (List.replicate 30 0) (Nav.Sfrbx.ofBuffer buf)) = .ok (n1, cs) → Shows md rcv lk n1 ms n' es →
      Shows md rcv lk n (.ubx 0x02 0x13 p :: ms) n'
        (cs.map .nav ++ ((rcv 0x02 0x13).map fun l => .ubx l 0x02 0x13 buf) ++ es)

/-- Has `config_rover` been called with this interface? -/
def RoverOn (evs : List Ev) (iface : Nat) : Prop := .configRover iface ∈ evs

/-- Everything received from the receiver since construction. -/
def received (evs : List Ev) : List Byte :=
  evs.flatMap fun
    | .rx b => b
    | _ => []

/-- Objects in the state in which their constructors leave them (uninitialised members are arbitrary).
ubx.cpp:41-53, rtcm.cpp:26-35, ubx_defs.h:1007-1009, ubx.h:152, rtcm.h:38, 71. -/
def FreshUbx (u : Ubx) : Prop :=
  ∃ inMsg outMsg modName major minor, inMsg.length = 2048 ∧ outMsg.length = 2048 ∧ modName.length = 10 ∧
    u = Ubx.init inMsg outMsg modName major minor
def FreshRtcm (r : Rtcm) : Prop := ∃ inBuf a b c, inBuf.length = 1024 ∧ r = Rtcm.init inBuf a b c

/-- Executions: the device `d` was constructed, with any answers of the receiver, and then the events `evs` happened, with
effects `es`. -/
def Reach (md : Nav.Mode) (d : Dev) (evs : List Ev) (es : List Eff) : Prop :=
  ∃ u r g ss d0 e0, FreshUbx u ∧ FreshRtcm r ∧ FreshRtcm g ∧
    construct md (start u r g) ss = .ok (some (some d0, e0)) ∧ run md d0 evs = .ok (d, es)

end Dev
end Ublox
