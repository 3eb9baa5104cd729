import Verif.Model.Nested

/-!
# A panic while a `checked()` guard is alive

The guards have a `Drop` (`src/ip/v4/packet.rs:437-441`, `src/udp/packet.rs:263-270`, `src/tcp/packet.rs:342-349`,
`src/icmp/packet.rs:188-194`), so when the thread panics while a guard is alive, in a setter or in the user's own
code, unwinding runs it.  A panic in a `Drop` that runs during unwinding aborts the process.  (With `panic = "abort"` in
the profile nothing is unwound; that is not modelled.)
-/

namespace Verif

/-- How a program that makes a guard, calls setters and lets go of the guard ends (the `Drop`s are at
`src/ip/v4/packet.rs:437-441` and so on). -/
inductive Ended where
  /-- the statement is done -/
  | returns
  /-- the thread unwinds further; the buffer can be seen by whoever catches it -/
  | panics
  /-- the process is gone -/
  | aborts
  deriving DecidableEq

/-- `{ let mut guard = packet.checked(…); let _ = guard.set_…(…); …; user code }`: the calls, of which some may return an
error that the program drops, then user code, which panics if `interrupted`, then `Drop` as `drop`
(`src/ip/v4/packet.rs:381-441` and the guards of the other packet types). -/
def guarded (calls : List (Mut Bytes Unit)) (drop : Mut Bytes Unit) (interrupted : Bool) (b : Bytes) : Ended × Bytes :=
  match runIgnoringErrors calls b with
  | (.panic, c) =>
    match drop c with
    | (.ok _, d) => (.panics, d)
    | (_, d) => (.aborts, d)
  | (_, c) =>
    match drop c with
    | (.ok _, d) => (if interrupted then .panics else .returns, d)
    | (_, d) => (if interrupted then .aborts else .panics, d)

/-- `src/ip/v4/packet.rs:381-441`. -/
def V4.guarded (cfg : Cfg) (ops : List V4.Set) (interrupted : Bool) : Bytes → Ended × Bytes :=
  Verif.guarded (ops.map V4.Set.run) (V4.updateChecksum cfg).unwrap interrupted

/-- `src/udp/packet.rs:236-270`. -/
def Udp.guarded (cfg : Cfg) (ip : IpPacket) (ops : List Udp.Set) (interrupted : Bool) : Bytes → Ended × Bytes :=
  Verif.guarded (ops.map Udp.Set.run) (Udp.updateChecksum cfg ip).unwrap interrupted

/-- `src/tcp/packet.rs:295-349`. -/
def Tcp.guarded (cfg : Cfg) (ip : IpPacket) (ops : List Tcp.Set) (interrupted : Bool) : Bytes → Ended × Bytes :=
  Verif.guarded (ops.map Tcp.Set.run) (Tcp.updateChecksum cfg ip).unwrap interrupted

/-- `src/icmp/packet.rs:180-194` with the setters of `src/icmp/echo/packet.rs`. -/
def Echo.guarded (cfg : Cfg) (ops : List Echo.Set) (interrupted : Bool) : Bytes → Ended × Bytes :=
  Verif.guarded (ops.map Echo.Set.run) (Icmp.dropChecked cfg (Echo.size cfg)) interrupted

/-- `src/icmp/packet.rs:180-194` with the setters of `src/icmp/timestamp/packet.rs`. -/
def Timestamp.guarded (cfg : Cfg) (ops : List Timestamp.Set) (interrupted : Bool) : Bytes → Ended × Bytes :=
  Verif.guarded (ops.map Timestamp.Set.run) (Icmp.dropChecked cfg Timestamp.size) interrupted

/-- `src/icmp/packet.rs:180-194` with the setters of `src/icmp/information/packet.rs`. -/
def Information.guarded (cfg : Cfg) (ops : List Information.Set) (interrupted : Bool) : Bytes → Ended × Bytes :=
  Verif.guarded (ops.map Information.Set.run) (Icmp.dropChecked cfg Information.size) interrupted

end Verif
