/-
C86: strings of requests.
-/
import Verif.Model.Arena

namespace Indigo.Arena

/-- The buffer as `Base/Ext.lean` has it, and the strings as values. -/
structure Values where
  buf : Buf
  strings : List Bytes := []

def Values.step (v : Values) : Op → Values
  | .append b => match v.buf.append b with
    | some buf => { v with buf }
    | none => v
  | .finish => { buf := v.buf.finish.2, strings := v.strings ++ [v.buf.finish.1] }
  | .rewrite i b => if (v.strings[i]?.map List.length) = some b.length then { v with strings := v.strings.set i b } else v

def Values.run (v : Values) (ops : List Op) : Values := ops.foldl Values.step v

/-- Requests one after another on a connection: for each, the head is parsed, then the buffer is cleared. -/
def heads (grow : Nat → Nat → Nat) (st : St) (reqs : List (List Op)) : St := reqs.foldl (fun st ops => (run grow st ops).clear) st

end Indigo.Arena
