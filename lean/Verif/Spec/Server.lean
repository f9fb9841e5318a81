import Verif.Model.Server

/-! What one expects of the server: everybody gets the file. -/

namespace IIVision.Spec

/-- The server can get to state `s` while the file had the contents `history` one after the other
(the first being those at the start). -/
inductive ServerRun : List (Option (List U8)) → Server → Prop
  | start (file : Option (List U8)) : ServerRun [file] (Server.new file)
  | step {h : List (Option (List U8))} {s t : Server} : ServerRun h s → s.Step t → t.file = s.file →
      ServerRun h t
  | edit {h : List (Option (List U8))} {s t : Server} : ServerRun h s → s.Step t → t.file ≠ s.file →
      ServerRun (h ++ [t.file]) t

end IIVision.Spec
