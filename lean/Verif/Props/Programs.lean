import Verif.Spec.Programs
import Verif.Props.DatagramLink

/-!
# C144: base and rover programs reach each other; C145: programs that record
-/

namespace Ublox.Programs

open Ublox.Dev (Ev Reach RoverOn exRun exFrame)
open Nav (Mode)

/-! ## C144 -/

/-- Whatever programs: if the network carries datagrams of a program to a rover program, the receiver of the rover gets
exactly these, and they are whole correction frames. -/
theorem c144_link {pb pr : List Act} {mb mr : Mode} {b r : Dev} {evb evr : List Ev} {eb er0 : List Eff}
    {net : List (List Byte)} (hrov : .rover ∈ pr) (hb : Reach mb b (roleCalls pb ++ evb) eb)
    (hnet : Carried pb pr ((eb.filterMap Eff.rtk?).map (·.2)) net) (h0 : ∀ x ∈ eb.filterMap Eff.rtk?, x.1 = 0)
    (hr : Reach mr r (roleCalls pr ++ evr) er0) (hp : r.dbg.parsingMessage = false) :
    (∃ r', r.run mr (net.map (.rtkRx 0)) = .ok (r', net.map .toReceiver)) ∧
    ∀ f ∈ net, ∃ p, RtcmFrame p f ∧ 1 ≤ p.length ∧ p.length ≤ 1018 := by
  have hon : RoverOn (roleCalls pr ++ evr) 0 :=
    List.mem_append_left _ (List.mem_filterMap.2 ⟨_, hrov, rfl⟩)
  obtain ⟨⟨r', h1, -⟩, h2⟩ := Dev.c120_lossy_link (i := 0) hb (fun f hf => by
    obtain ⟨⟨i, g⟩, hx, rfl⟩ := List.mem_map.1 (hnet f hf).1
    have := h0 _ hx
    dsimp only at this ⊢
    rw [← this]; exact hx) hr hon hp
  exact ⟨⟨r', h1⟩, h2⟩

/-- C144, the example programs: whatever their arguments, each is addressed by the other's datagrams and they do not use the
same socket; each opens the serial port it is given, and without arguments they can run side by side; the base program makes its
device a base and no rover, the rover program makes its device a rover and no base. -/
theorem c144_examples (argvB argvR : List String) :
    Hears (roverMain argvR) (baseMain argvB) ∧ Hears (baseMain argvB) (roverMain argvR) ∧
    (∀ e ∈ bound (baseMain argvB), e ∉ bound (roverMain argvR)) ∧
    (∀ a0 port rest, argvB = a0 :: port :: rest → serials (baseMain argvB) = [port]) ∧
    (∀ a0 port rest, argvR = a0 :: port :: rest → serials (roverMain argvR) = [port]) ∧
    (argvB.length ≤ 1 → argvR.length ≤ 1 → Compatible (baseMain argvB) (roverMain argvR)) ∧
    roleCalls (baseMain argvB) = [.configBase 0 true] ∧ roleCalls (roverMain argvR) = [.configRover 0] := by
  refine ⟨⟨⟨"localhost", 16145⟩, by simp [bound, roverMain], by simp [sendsTo, baseMain]⟩,
    ⟨⟨"localhost", 16140⟩, by simp [bound, baseMain], by simp [sendsTo, roverMain]⟩, ?_, ?_, ?_, ?_,
    by simp [roleCalls, baseMain], by simp [roleCalls, roverMain]⟩
  · simp [bound, baseMain, roverMain]
  · rintro a0 port rest rfl; simp [serials, baseMain]
  · rintro a0 port rest rfl; simp [serials, roverMain]
  · intro h1 h2
    refine ⟨by simp [bound, baseMain, roverMain], ?_⟩
    simp [serials, baseMain, roverMain, show ¬ 1 < argvB.length by omega, show ¬ 1 < argvR.length by omega]

/-- C144, the ROS nodes: with parameters that point a base node's remote end to the rover node's local end, the datagrams of
the base are addressed to the rover; and host and port are those given, if the port is one. -/
theorem c144_ros_partial (p q : Params) (hb : p.rtkType = some 3) (hr : q.rtkType = some 2) (host : String) (port : Int)
    (h1 : p.remoteHost = some host) (h2 : p.remotePort = some port) (h3 : q.localHost = some host) (h4 : q.localPort = some port) :
    Hears (rosNode q) (rosNode p) ∧ roleCalls (rosNode p) = [.configBase 0 true] ∧ roleCalls (rosNode q) = [.configRover 0] ∧
    (0 ≤ port → port < 65536 → bound (rosNode q) = [⟨host, port.toNat⟩] ∧ sendsTo (rosNode p) = [⟨host, port.toNat⟩]) := by
  have ep : rosNode p = [.serial (p.serialPort.getD "/dev/ttyACM0") 921600, .device,
      .udp ⟨p.localHost.getD "localhost", port16 (p.localPort.getD 16140)⟩ ⟨host, port16 port⟩, .base] := by
    unfold rosNode; rw [hb, h1, h2]; rfl
  have eq : rosNode q = [.serial (q.serialPort.getD "/dev/ttyACM0") 921600, .device,
      .udp ⟨host, port16 port⟩ ⟨q.remoteHost.getD "localhost", port16 (q.remotePort.getD 16145)⟩, .rover] := by
    unfold rosNode; rw [hr, h3, h4]; rfl
  rw [ep, eq]
  refine ⟨⟨⟨host, port16 port⟩, by simp [bound], by simp [sendsTo]⟩, by simp [roleCalls], by simp [roleCalls], fun h0 h1 => ?_⟩
  have e : port16 port = port.toNat := by
    unfold port16
    rw [Int.emod_eq_of_lt h0 h1]
  simp [bound, sendsTo, e]

/-- C144 is false of ROS nodes with default ports: whatever hosts are given, a rover node does not listen where a base node
sends, so a rover gets nothing … -/
theorem c144_ros_refuted (p q : Params) (hb : p.rtkType = some 3) (hr : q.rtkType = some 2) (h2 : p.remotePort = none)
    (h4 : q.localPort = none) (sent net : List (List Byte)) (hnet : Carried (rosNode p) (rosNode q) sent net) : net = [] := by
  have ep : rosNode p = [.serial (p.serialPort.getD "/dev/ttyACM0") 921600, .device,
      .udp ⟨p.localHost.getD "localhost", port16 (p.localPort.getD 16140)⟩ ⟨p.remoteHost.getD "localhost", 16145⟩, .base] := by
    unfold rosNode; rw [hb, h2]; rfl
  have eq : rosNode q = [.serial (q.serialPort.getD "/dev/ttyACM0") 921600, .device,
      .udp ⟨q.localHost.getD "localhost", 16140⟩ ⟨q.remoteHost.getD "localhost", port16 (q.remotePort.getD 16145)⟩, .rover] := by
    unfold rosNode; rw [hr, h4]; rfl
  cases net with
  | nil => rfl
  | cons f net =>
    obtain ⟨e, he1, he2⟩ := (hnet f (by simp)).2
    rw [eq] at he1
    rw [ep] at he2
    simp [bound] at he1
    simp [sendsTo] at he2
    rw [he1] at he2
    simp at he2

/-- … and a base node and a rover node with default parameters cannot run on one machine. -/
theorem c144_ros_clash_refuted : ¬ Compatible (rosNode { rtkType := some 3 }) (rosNode { rtkType := some 2 }) := by
  intro h
  exact h.1 ⟨"localhost", 16140⟩ (by decide) (by decide)

/-- The hypotheses of `c144_link` are met: a base example and a rover example, one correction frame. -/
example : (exRun (roleCalls (baseMain ["base"]) ++ [.rx exFrame])).map
      (fun x => ((x.2.filterMap Eff.rtk?).map (fun y => y.2), (x.2.filterMap Eff.rtk?).all (fun y => y.1 == 0))) = some ([exFrame], true) ∧
    (exRun (roleCalls (roverMain ["rover", "/dev/ttyUSB0"]))).map (fun x => x.1.dbg.parsingMessage) = some false ∧
    Carried (baseMain ["base"]) (roverMain ["rover", "/dev/ttyUSB0"]) [exFrame] [exFrame, exFrame] :=
  ⟨by decide +kernel, by decide +kernel, fun f hf => ⟨by simpa using hf, (c144_examples _ _).1⟩⟩

/-! ## C145 -/

/-- C145, `read_serial`: the stream is recorded to the file named by the second argument, and only then. -/
theorem c145_read_serial_partial (argv : List String) (file : String) :
    .record file ∈ readSerialMain argv ↔ (∃ a0 a1 rest, argv = a0 :: a1 :: file :: rest) ∧ file ≠ "" := by
  unfold readSerialMain
  match argv with
  | [] => simp
  | [a] => simp
  | [a, b] => simp
  | a :: b :: c :: rest =>
    by_cases h : c = ""
    · subst h
      simp
    · simp [h]
      constructor
      · rintro rfl; exact ⟨rfl, h⟩
      · rintro ⟨rfl, -⟩; rfl

/-- C145 is false of the ROS node: with any parameter `log_filename` it does the same as without it, and records nothing. -/
theorem c145_ros_refuted (p : Params) (file : Option String) :
    rosNode { p with logFilename := file } = rosNode p ∧ ∀ f, .record f ∉ rosNode p := by
  refine ⟨rfl, fun f h => ?_⟩
  unfold rosNode at h
  dsimp only at h
  rcases List.mem_append.1 h with h | h
  · simp at h
  · by_cases c : p.rtkType.getD 0 / 2 % 2 = 1
    · rw [if_pos c] at h
      rcases List.mem_append.1 h with h | h
      · simp at h
      · by_cases c2 : p.rtkType.getD 0 = 2
        · rw [if_pos c2] at h; simp at h
        · rw [if_neg c2] at h
          by_cases c3 : p.rtkType.getD 0 = 3
          · rw [if_pos c3] at h; simp at h
          · rw [if_neg c3] at h; simp at h
    · rw [if_neg c] at h; simp at h

/-- `read_log` replays the file it is given, and without one says so and does nothing. -/
theorem c145_read_log (argv : List String) :
    (∀ a0 file rest, argv = a0 :: file :: rest → readLogMain argv = [.replay file, .device]) ∧
    (argv.length ≤ 1 → readLogMain argv = [.refuse "Must supply a log file to read\n"]) := by
  refine ⟨?_, fun h => ?_⟩
  · rintro a0 file rest rfl; simp [readLogMain]
  · unfold readLogMain; rw [if_neg (by omega)]

example : readSerialMain ["read_serial", "/dev/ttyUSB0", "out.bin"] =
    [.serial "/dev/ttyUSB0" 3000000, .device, .record "out.bin"] := by decide

end Ublox.Programs
