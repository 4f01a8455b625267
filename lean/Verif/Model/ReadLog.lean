import Verif.Model.Logger

/-!
# The log reading example (src/examples/read_log.cpp)
-/

namespace Ublox.Logger

/-- `main` of read_log: open the log, construct the driver on it (which adds itself as listener and polls the receiver's
version; `ss` is what arrives meanwhile), then `play()`.  `none`: the polls of the constructor have not ended yet.  The
callbacks registered in between do not influence the serial traffic. src/examples/read_log.cpp:95-126. -/
def readLog (md : Nav.Mode) (u : Ubx) (r g : Rtcm) (contents : Option (List Byte)) (ss : List Ubx.Sched) :
    Out (Option (List SerialCall)) :=
  match create .read contents with
  | .throw => .throw
  | .ub e => .ub e
  | .ok lg =>
    match Dev.construct md (Dev.start u r g) ss with
    | .error e => .ub e
    | .ok none => .ok none
    | .ok (some (none, _)) => .throw
    | .ok (some (some _, _)) =>
      match ({ lg with listeners := lg.listeners ++ [0] }).play with
      | .throw => .throw
      | .ub e => .ub e
      | .ok cs => .ok (some cs)

end Ublox.Logger
