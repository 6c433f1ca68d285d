import Verif.Basic

/-!
# Model of `split_lines`, `/repo/src/pyromat/utility.py:427-492`

Python strings are lists of characters.  `ws` is Python's `str.isspace` on characters; nothing
is assumed of it in the model.
-/

namespace PyroMat.Text

/-- `text.split('\n\n')` (`utility.py:460`): leftmost, non-overlapping. -/
def splitNN : List Char → List (List Char)
  | [] => [[]]
  | '\n' :: '\n' :: rest => [] :: splitNN rest
  | c :: rest =>
    match splitNN rest with
    | [] => [[c]]
    | p :: ps => (c :: p) :: ps

/-- `par.split()` (`utility.py:462`): maximal runs of non-whitespace. `cur` is the run so far. -/
def wordsFrom (ws : Char → Bool) (cur : List Char) : List Char → List (List Char)
  | [] => if cur = [] then [] else [cur]
  | c :: rest =>
    if ws c then (if cur = [] then wordsFrom ws [] rest else cur :: wordsFrom ws [] rest)
    else wordsFrom ws (cur ++ [c]) rest

/-- `par.split()`. -/
def words (ws : Char → Bool) (par : List Char) : List (List Char) := wordsFrom ws [] par

/-- The `while NW>Nmax` loop (`utility.py:469-477`).  Arguments: text so far, characters on the
current line, the word; result: text, characters on the line, rest of the word.  The guard
`0 < nmax` is established by the early return at `utility.py:455`. -/
def chop (lead tailn : List Char) (nmax : Nat) (out : List Char) (nline : Nat)
    (word : List Char) : List Char × Nat × List Char :=
  if h : 0 < nmax ∧ nmax < word.length then
    chop lead tailn nmax
      ((if nline > 0 then out ++ tailn else out) ++ lead ++ word.take nmax ++ tailn ++ lead) 0
      (word.drop nmax)
  else (out, nline, word)
termination_by word.length
decreasing_by simp only [List.length_drop]; omega

/-- One word (`utility.py:465-489`). -/
def putWord (lead tailn : List Char) (nmax : Nat) (st : List Char × Nat) (word : List Char) :
    List Char × Nat :=
  let r := chop lead tailn nmax st.1 st.2 word
  let out := r.1
  let nline := r.2.1
  let w := r.2.2
  if nline + 1 + w.length > nmax then (out ++ tailn ++ lead ++ w, w.length)
  else if nline = 0 then (out ++ w, w.length)
  else (out ++ (' ' :: w), nline + (1 + w.length))

/-- One paragraph (`utility.py:461-490`). -/
def putPar (ws : Char → Bool) (lead tailn : List Char) (nmax : Nat) (out par : List Char) :
    List Char :=
  ((words ws par).foldl (putWord lead tailn nmax) (out, 0)).1 ++ tailn

/-- `split_lines` (`utility.py:427-492`); `none` is the return value `-1`.
Simplification: `width` is an integer (the code truncates `width - NL - NT` with `int`). -/
def splitLines (ws : Char → Bool) (text lead tail : List Char) (width : Int) :
    Option (List Char) :=
  if width - lead.length - tail.length ≤ 0 then none
  else
    let nmax := (width - lead.length - tail.length).toNat
    some ((splitNN text).foldl (putPar ws lead (tail ++ ['\n']) nmax) lead)

end PyroMat.Text
