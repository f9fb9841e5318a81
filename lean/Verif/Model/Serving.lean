import Verif.Model.Server
import Verif.Model.Buffered

/-! Model of server/server.py while the served file is being changed.

As `Model/Server.lean`, but the file is not read at one moment.  `open` gives a handle for the file that has the name at that moment; `f.read()`
(library code: CPython's `FileIO.readall`) calls `read` of the operating system until it returns nothing.  Each call returns some bytes of what the file
has from the position reached on, or nothing if the file has no more than that, or raises an exception.  Meanwhile the contents of any file may
be changed (the handle sees it) and the name may be given to another file (the handle does not see it). -/

namespace IIVision

/-- How far a handler has got. -/
inductive Handling where
  /-- server.py:22-23: the open file, and what has been read of it -/
  | reading (i : Nat) (got : List U8)
  /-- server.py:25: what `sendall` still has to send -/
  | sending (rest : List U8)

/-- The server, its clients and files (both named by numbers). -/
structure Live where
  contents : Nat → List U8
  /-- server.py:17: the file that has the name given on the command line, if there is one -/
  name : Option Nat
  pending : List Nat
  current : Option (Nat × Handling)
  status : Nat → ConnStatus
  received : Nat → List U8

/-- server.py:33-35: bound and listening, nobody connected. -/
def Live.new (contents : Nat → List U8) (name : Option Nat) : Live :=
  ⟨contents, name, [], none, fun _ => .absent, fun _ => []⟩

/-- What can happen next (server.py:21-25). -/
inductive Live.Step : Live → Live → Prop
  /-- a client connects -/
  | connect (s : Live) (c : Nat) : s.status c = .absent →
      Step s { s with pending := s.pending ++ [c], status := setAt s.status c .waiting }
  /-- somebody changes the contents of a file -/
  | write (s : Live) (i : Nat) (d : List U8) : Step s { s with contents := setAt s.contents i d }
  /-- somebody gives the name to another file, or removes it -/
  | link (s : Live) (n : Option Nat) : Step s { s with name := n }
  /-- server.py:22, the next connection is accepted, its handler opens the file -/
  | accept (s : Live) (c : Nat) (rest : List Nat) (i : Nat) : s.current = none → s.pending = c :: rest → s.name = some i →
      Step s { s with pending := rest, current := some (c, .reading i []), status := setAt s.status c .served }
  /-- server.py:22, there is no such file -/
  | cannotOpen (s : Live) (c : Nat) (rest : List Nat) : s.current = none → s.pending = c :: rest → s.name = none →
      Step s { s with pending := rest, status := setAt s.status c .failed }
  /-- server.py:23, one `read` of the operating system -/
  | read (s : Live) (c i : Nat) (got : List U8) (k : Nat) : s.current = some (c, .reading i got) → 0 < k →
      got.length + k ≤ (s.contents i).length →
      Step s { s with current := some (c, .reading i (got ++ ((s.contents i).drop got.length).take k)) }
  /-- server.py:23-25, the last `read` has found nothing -/
  | eof (s : Live) (c i : Nat) (got : List U8) : s.current = some (c, .reading i got) → (s.contents i).length ≤ got.length →
      Step s { s with current := some (c, .sending got) }
  /-- server.py:23, `read` raises an exception -/
  | unreadable (s : Live) (c i : Nat) (got : List U8) : s.current = some (c, .reading i got) →
      Step s { s with current := none, status := setAt s.status c .failed }
  /-- server.py:25, one `send` of `sendall` hands over `k` bytes -/
  | send (s : Live) (c : Nat) (data : List U8) (k : Nat) : s.current = some (c, .sending data) → 0 < k → k ≤ data.length →
      Step s { s with current := some (c, .sending (data.drop k)), received := setAt s.received c (s.received c ++ data.take k) }
  /-- `sendall` has sent everything, the handler returns, the connection is closed -/
  | finish (s : Live) (c : Nat) : s.current = some (c, .sending []) →
      Step s { s with current := none, status := setAt s.status c .done }
  /-- server.py:25, `send` raises an exception, e.g. because the client is gone -/
  | broken (s : Live) (c : Nat) (data : List U8) : s.current = some (c, .sending data) → data ≠ [] →
      Step s { s with current := none, status := setAt s.status c .failed }

/-- transcoder/main.py:67-69 and server.py:21-25 at the same time: file `i` is the transcoder's output file and has, for the server, what the
operating system has been given of it; nobody else changes files or names. -/
inductive Together (P : Setup) (size : Nat) (dev : Device) (i : Nat) : Session × Live → Session × Live → Prop
  | transcoder {s t : Session} (v : Live) : Session.Step P size dev s t →
      Together P size dev i (s, v) (t, { v with contents := setAt v.contents i ((t.prog.disk P.name).getD []) })
  | server (s : Session) {v w : Live} : v.Step w → w.contents = v.contents → w.name = v.name → Together P size dev i (s, v) (s, w)

end IIVision
