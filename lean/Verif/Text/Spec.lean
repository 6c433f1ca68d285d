import Verif.Text.Model

/-! # Specification vocabulary for wrapped text -/

namespace PyroMat.Text.Spec

/-- A physical output line: `leads` copies of the lead, the payload, the tail, a newline. -/
structure Line where
  leads : Nat
  payload : List Char

/-- The characters of a line. -/
def Line.chars (lead tail : List Char) (l : Line) : List Char :=
  (List.replicate l.leads lead).flatten ++ l.payload ++ tail ++ ['\n']

/-- The text consisting of these lines. -/
def render (lead tail : List Char) (ls : List Line) : List Char :=
  (ls.map (Line.chars lead tail)).flatten

/-- The non-blank characters of a text, in order. -/
def ink (ws : Char → Bool) (l : List Char) : List Char := l.filter (fun c => !ws c)

/-- Words joined by single spaces. -/
def spaced : List (List Char) → List Char
  | [] => []
  | [w] => w
  | w :: ws => w ++ ' ' :: spaced ws

end PyroMat.Text.Spec
