/-
Specification: path templates and what it means for a path to be an instance of one.
-/
import Verif.Base.Bytes

namespace Indigo.Spec.Radix

/-- One section of a template: a literal one, or `{name}`. -/
inductive Part
  | lit (s : Bytes)
  | var (name : Bytes)
  deriving DecidableEq, Repr

/-- A template. -/
abbrev Tmpl := List Part

/-- The text of a section. -/
def Part.text : Part → Bytes
  | .lit s => s
  | .var n => b!"{" ++ n ++ b!"}"

/-- The text of a template: every section is preceded by a slash; the empty template is the root. -/
def text : Tmpl → Bytes
  | [] => b!"/"
  | t => t.flatMap (fun p => b!"/" ++ p.text)

/-- A section which can be written down: literal ones are not empty and contain neither slashes nor braces, names
contain neither slashes nor braces. -/
def Part.Valid : Part → Prop
  | .lit s => s ≠ [] ∧ ∀ c ∈ s, c ≠ 47 ∧ c ≠ 123 ∧ c ≠ 125
  | .var n => ∀ c ∈ n, c ≠ 47 ∧ c ≠ 123 ∧ c ≠ 125

/-- The sections of a path (without its leading slash): what stands between slashes. A trailing slash adds no
section. `cur` is the section being read. -/
def sectionsFrom (cur : Bytes) : Bytes → List Bytes
  | [] => if cur = [] then [] else [cur]
  | c :: cs => if c = 47 then cur :: sectionsFrom [] cs else sectionsFrom (cur ++ [c]) cs

/-- The sections of a path (without its leading slash). -/
def sections (path : Bytes) : List Bytes := sectionsFrom [] path

/-- The path with these sections is an instance of the template, with these values of the named variables. A
variable stands for a non-empty section; one without a name has no value. -/
inductive Instance : Tmpl → List Bytes → List (Bytes × Bytes) → Prop
  | nil : Instance [] [] []
  | lit {s : Bytes} {t : Tmpl} {ss : List Bytes} {b : List (Bytes × Bytes)} :
      Instance t ss b → Instance (.lit s :: t) (s :: ss) b
  | var {n s : Bytes} {t : Tmpl} {ss : List Bytes} {b : List (Bytes × Bytes)} : n ≠ [] → s ≠ [] →
      Instance t ss b → Instance (.var n :: t) (s :: ss) ((n, s) :: b)
  | anonymous {s : Bytes} {t : Tmpl} {ss : List Bytes} {b : List (Bytes × Bytes)} : s ≠ [] →
      Instance t ss b → Instance (.var [] :: t) (s :: ss) b

/-- Literal sections take precedence: at no place where the template has a variable, another template with the same
beginning has the section of the path literally. -/
def Unshadowed (ts : List Tmpl) (t : Tmpl) (ss : List Bytes) : Prop :=
  ∀ i n s, t[i]? = some (.var n) → ss[i]? = some s → ∀ t' ∈ ts, ¬ (t.take i ++ [.lit s]) <+: t'

end Indigo.Spec.Radix

namespace Indigo.Spec.Radix

/-- The templates the code understands as they are written: the first section is literal, and if the last one is
literal, it has at least two bytes (other templates: see the `_violation` theorems). -/
def Writable (t : Tmpl) : Prop :=
  (∀ p ∈ t, p.Valid) ∧ (∀ n, t.head? ≠ some (.var n)) ∧ (∀ s, t.getLast? = some (.lit s) → 2 ≤ s.length)

/-- No two variables with different names at the same place. -/
def Compatible (t t' : Tmpl) : Prop :=
  ∀ i x y, t.take i = t'.take i → t[i]? = some (.var x) → t'[i]? = some (.var y) → x = y

/-- What stands between the slashes of a text. -/
def pieces (cur : Bytes) : Bytes → List Bytes
  | [] => [cur]
  | c :: cs => if c = 47 then cur :: pieces [] cs else pieces (cur ++ [c]) cs

/-- A section which contains no opening brace, or is a variable as a whole. -/
def WholeSection (s : Bytes) : Prop := 123 ∉ s ∨ ∃ n, s = b!"{" ++ n ++ b!"}" ∧ 123 ∉ n ∧ 125 ∉ n

/-- All sections are like that; the last one may be a variable which is not finished. -/
def WholeSections : List Bytes → Prop
  | [] => True
  | [s] => WholeSection s ∨ ∃ n, s = b!"{" ++ n ∧ 123 ∉ n ∧ 125 ∉ n
  | s :: ss => WholeSection s ∧ WholeSections ss

end Indigo.Spec.Radix
