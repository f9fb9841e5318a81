import Verif.Model.Basic

/-! Model of server/server.py, with the parts of Python's `socketserver.TCPServer` and of sockets it
uses: connections are accepted one at a time, in the order in which the clients connected; the
handler of one runs to its end before the next is accepted; an exception in a handler is reported
and the connection closed, the server goes on (`BaseServer._handle_request_noblock`).  `sendall`
calls `send` with what is left until nothing is; each call hands over at least one byte, waits
while the client does not read, or raises an exception. -/

namespace IIVision

/-- How far a connection has got. -/
inductive ConnStatus where
  /-- not connected yet -/
  | absent
  /-- connected, in the queue of the listening socket -/
  | waiting
  /-- its handler is running -/
  | served
  /-- the handler has returned, the connection is closed -/
  | done
  /-- the handler raised an exception, the connection is closed -/
  | failed
  deriving DecidableEq, Repr

/-- The server, its clients (named by numbers) and the served file (`none`: it cannot be opened). -/
structure Server where
  file : Option (List U8)
  /-- clients in the queue of the listening socket, the first to be accepted first -/
  pending : List Nat
  /-- the client being served, and what `sendall` still has to send -/
  current : Option (Nat × List U8)
  status : Nat → ConnStatus
  /-- what each client has been sent -/
  received : Nat → List U8

/-- server.py:33-35: bound and listening, nobody connected. -/
def Server.new (file : Option (List U8)) : Server :=
  ⟨file, [], none, fun _ => .absent, fun _ => []⟩

/-- A change of one client's entry. -/
def setAt {α : Type} (f : Nat → α) (c : Nat) (v : α) : Nat → α := fun x => if x = c then v else f x

/-- What can happen next. -/
inductive Server.Step : Server → Server → Prop
  /-- a client connects -/
  | connect (s : Server) (c : Nat) : s.status c = .absent →
      Step s { s with pending := s.pending ++ [c], status := setAt s.status c .waiting }
  /-- somebody changes or removes the file -/
  | edit (s : Server) (f : Option (List U8)) : Step s { s with file := f }
  /-- server.py:22-25, the next connection is accepted, its handler opens and reads the file -/
  | accept (s : Server) (c : Nat) (rest : List Nat) (data : List U8) : s.current = none →
      s.pending = c :: rest → s.file = some data →
      Step s { s with pending := rest, current := some (c, data), status := setAt s.status c .served }
  /-- server.py:22, the file cannot be opened -/
  | cannotOpen (s : Server) (c : Nat) (rest : List Nat) : s.current = none →
      s.pending = c :: rest → s.file = none →
      Step s { s with pending := rest, status := setAt s.status c .failed }
  /-- server.py:25, one `send` of `sendall` hands over `k` bytes -/
  | send (s : Server) (c : Nat) (data : List U8) (k : Nat) : s.current = some (c, data) → 0 < k →
      k ≤ data.length →
      Step s { s with
        current := some (c, data.drop k)
        received := setAt s.received c (s.received c ++ data.take k) }
  /-- `sendall` has sent everything, the handler returns, the connection is closed -/
  | finish (s : Server) (c : Nat) : s.current = some (c, []) →
      Step s { s with current := none, status := setAt s.status c .done }
  /-- server.py:25, `send` raises an exception, e.g. because the client is gone -/
  | broken (s : Server) (c : Nat) (data : List U8) : s.current = some (c, data) → data ≠ [] →
      Step s { s with current := none, status := setAt s.status c .failed }

end IIVision
