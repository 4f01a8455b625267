import Mathlib.Data.List.Basic

/-!
# Listener lists while data are arriving

`SerialInterface::listeners_`, `UBX::listeners_`, `RTCM::listeners_` and the two callback vectors of `NavParser` are
`std::vector`s that the receive thread walks with a range-`for` while the application may append to them. The model keeps
the vector's storage apart from its contents: growing it frees the old storage, so iterators into it dangle.

Simplifications: the two threads interleave at the grain of the events below (sequential consistency, `push_back` is one
event). C++ calls every overlap a data race and promises nothing; the faults found here need no such licence.
-/

namespace Ublox.Conc

/-- What can go wrong. (C++ [vector.modifiers], [expr.unary.op]; no code line.) -/
inductive Fault where
  /-- dereferencing an iterator into storage that has been freed -/
  | dangling
  /-- dereferencing an iterator at or beyond the end -/
  | outOfRange
  deriving DecidableEq

/-- `std::vector<L*> listeners_`. serial_interface.h:22; ubx.h:92; rtcm.h:101. -/
structure Vec (α : Type) where
  /-- number of the allocation that holds the elements now; allocations with smaller numbers are freed -/
  alloc : Nat
  /-- how many elements the allocation can hold -/
  cap : Nat
  items : List α

/-- An iterator: a position in an allocation. (C++ [vector.overview]; async_comm_adapter.h:56.) -/
structure Iter where
  alloc : Nat
  idx : Nat
  deriving DecidableEq

/-- A vector as constructed. serial_interface.h:22; ubx.h:92; rtcm.h:101. -/
def Vec.empty {α : Type} : Vec α := ⟨0, 0, []⟩

/-- `listeners_.push_back(l)`; `grow` is the library's growth policy. serial_interface.h:19; ubx.cpp:455-458;
rtcm.cpp:179-182; nav.cpp:58-66. -/
def Vec.pushBack {α : Type} (grow : Nat → Nat) (v : Vec α) (l : α) : Vec α :=
  if v.items.length < v.cap then { v with items := v.items ++ [l] } else ⟨v.alloc + 1, grow v.cap, v.items ++ [l]⟩

/-- `*it`. async_comm_adapter.h:56-59. -/
def Vec.deref {α : Type} (v : Vec α) (it : Iter) : Except Fault α :=
  if it.alloc = v.alloc then
    match v.items[it.idx]? with
    | some l => .ok l
    | none => .error .outOfRange
  else .error .dangling

/-- Where the receive thread is: waiting, or in `for (auto& l : listeners_)` with the data at hand, having evaluated
`begin()`, or also `end()`. async_comm_adapter.h:52-60; ubx.cpp:446-450; rtcm.cpp:168-171. -/
inductive Rx (β : Type) where
  | idle
  | begun (c : β) (it : Iter)
  | loop (c : β) (it e : Iter)

/-- What an outside observer sees. (Ghost record of the run; no code line.) -/
inductive Entry (α β : Type) where
  /-- a listener was registered -/
  | reg (l : α)
  /-- the delivery of a buffer or message began -/
  | start (c : β)
  /-- a listener was called with it -/
  | call (l : α) (c : β)

/-- The shared state. async_comm_adapter.h:38-61. -/
structure St (α β : Type) where
  vec : Vec α
  /-- data waiting for the receive thread, oldest first -/
  queue : List β
  rx : Rx β
  /-- the observable history, newest last -/
  trace : List (Entry α β)

/-- What the scheduler may let happen next. (Interleaving; async_comm_adapter.h:52-60, serial_interface.h:19.) -/
inductive Ev (α β : Type) where
  /-- somebody registers a listener (another thread, or a listener from inside its callback) -/
  | register (l : α)
  /-- data come in -/
  | data (c : β)
  /-- the receive thread makes a step -/
  | rx

/-- One event. The receive thread takes the next data and evaluates `begin()`; evaluates `end()`; or compares, dereferences,
calls and increments. async_comm_adapter.h:52-60 (Serial), 26-34 (UDP); ubx.cpp:446-450; rtcm.cpp:168-171. -/
def step {α β : Type} (grow : Nat → Nat) (s : St α β) : Ev α β → Except Fault (St α β)
  | .register l => .ok { s with vec := s.vec.pushBack grow l, trace := s.trace ++ [.reg l] }
  | .data c => .ok { s with queue := s.queue ++ [c] }
  | .rx =>
    match s.rx with
    | .idle =>
      match s.queue with
      | [] => .ok s
      | c :: q => .ok { s with queue := q, rx := .begun c ⟨s.vec.alloc, 0⟩ }
    | .begun c it => .ok { s with rx := .loop c it ⟨s.vec.alloc, s.vec.items.length⟩, trace := s.trace ++ [.start c] }
    | .loop c it e =>
      if it = e then .ok { s with rx := .idle }
      else
        match s.vec.deref it with
        | .error f => .error f
        | .ok l => .ok { s with rx := .loop c ⟨it.alloc, it.idx + 1⟩ e, trace := s.trace ++ [.call l c] }

/-- A whole schedule. (Interleaving; no code line.) -/
def run {α β : Type} (grow : Nat → Nat) (s : St α β) : List (Ev α β) → Except Fault (St α β)
  | [] => .ok s
  | ev :: evs =>
    match step grow s ev with
    | .error f => .error f
    | .ok s' => run grow s' evs

/-- Before anybody has registered. serial_interface.h:22. -/
def init {α β : Type} : St α β := ⟨Vec.empty, [], .idle, []⟩

end Ublox.Conc
