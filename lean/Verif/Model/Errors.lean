import Verif.Py.Basic
/-!
# Error reports (`hgpl/errors.py`)

The message is kept as given by the code that raises; for lexer and parser it is in `Model/Messages.lean`. `repr` and the
remaining fields (tokens, nodes) are dropped here.
-/

namespace Verif

/-- `s[i:j]` for a Python string and integers: negative bounds count from the end, everything is clamped. -/
def pySlice (s : Str) (i j : Int) : Str :=
  let n : Int := s.length
  let clamp := fun k : Int => (max 0 (min n (if k < 0 then k + n else k))).toNat
  (s.drop (clamp i)).take (clamp j - clamp i)

/-- The fields of `HGPLError`, `hgpl/errors.py:14-20`. `text` is `None` or the policy. -/
structure HGPLError where
  message : Str
  text : Option Str := none
  pos : Int := -1

namespace HGPLError

/-- Truth value of `self.policy_text`. -/
def hasText (e : HGPLError) : Bool := e.text.any (fun t => t ≠ [])

/-- `HGPLError.near`, `hgpl/errors.py:22-29`. -/
def near (e : HGPLError) (n : Int) : Option Str :=
  match e.text with
  | none => none
  | some t =>
    if t ≠ [] ∧ e.pos ≥ 0 then
      let i := if e.pos - n ≥ 0 then e.pos - n else 0
      let j := if e.pos + n + 1 ≤ t.length then e.pos + n + 1 else t.length
      some (pySlice t i j)
    else none

/-- `HGPLError.__str__`, `hgpl/errors.py:31-37`; `default_near_length` is 10. -/
def str (e : HGPLError) : Str :=
  if e.pos ≥ 0 then
    let s := e.message ++ " @ char ".toList ++ (toString e.pos).toList
    if e.hasText then s ++ " near '".toList ++ (e.near 10).getD "None".toList ++ "'".toList else s
  else e.message

/-- `ParserError.__str__`, `hgpl/errors.py:52-57`. -/
def parserStr (U : Uni) (e : HGPLError) (rule : Option Str) : Str :=
  match rule with
  | none => e.str
  | some r => if r ≠ [] then e.str ++ " while parsing ".toList ++ U.upper r ++ " rule.".toList else e.str

end HGPLError

end Verif
