/-
Specification: which template a text is taken for, whatever the text.
-/
import Verif.Spec.Radix

namespace Indigo.Spec.Radix

/-- The sections behind the first one, `slashes` being the slashes which have been read more than once since the section before. Empty sections are not sections of their own: before a literal
section their slashes are taken for a part of it, and elsewhere they count for nothing. A literal section of one byte at the end counts for nothing, and so does an unfinished variable at the end. `none`: refused. -/
def meantFrom (slashes : Bytes) : List Bytes → Option Tmpl
  | [] => some []
  | s :: rest =>
    if s = [] then meantFrom (slashes ++ [47]) rest
    else if 123 ∉ s then
      if rest = [] then some (if 2 ≤ (slashes ++ s).length then [.lit (slashes ++ s)] else [])
      else (meantFrom [] rest).map (.lit (slashes ++ s) :: ·)
    else
      let n := (s.drop 1).dropLast
      if s = b!"{" ++ n ++ b!"}" ∧ 123 ∉ n ∧ 125 ∉ n then (meantFrom [] rest).map (.var n :: ·)
      else if rest = [] ∧ s = b!"{" ++ s.drop 1 ∧ 123 ∉ s.drop 1 ∧ 125 ∉ s.drop 1 then some []
      else none

/-- The template a text is taken for: it begins with a slash, and its first section has no opening brace. `none`: refused. -/
def meant : Bytes → Option Tmpl
  | [] => none
  | c :: text =>
    if c ≠ 47 then none
    else
      match pieces [] text with
      | [] => none
      | s :: rest =>
        if 123 ∈ s then none
        else if rest = [] then some (if 2 ≤ s.length then [.lit s] else [])
        else (meantFrom [] rest).map (.lit s :: ·)

/-- What the last one of several registrations with this template is registered with. -/
def lastFor {π : Type} (ts : List (Tmpl × π)) (t : Tmpl) : Option π := ((ts.filter (fun x => x.1 = t)).getLast?).map (·.2)

end Indigo.Spec.Radix
