import Verif.Py.Basic

/-!
# What an INI file says

Independent of how it is read: a file is a sequence of sections, each a header and options with values that may go on over
indented lines; lines that are blank or comments may stand anywhere. Values may refer to other options by `%(name)s` and
write a `%` as `%%`.
-/

namespace Verif.Spec

/-! ### Values -/

/-- With `n` levels of references, the value `s` means `r`; `look` gives the value of an option, by lower-cased name. -/
inductive Expands (U : Uni) (look : Str → Option Str) : Nat → Str → Str → Prop
  | nil {n : Nat} : Expands U look (n + 1) [] []
  | char {n : Nat} {c : Char} {s r : Str} (h : c ≠ '%') (ht : Expands U look (n + 1) s r) :
      Expands U look (n + 1) (c :: s) (c :: r)
  | percent {n : Nat} {s r : Str} (ht : Expands U look (n + 1) s r) : Expands U look (n + 1) ('%' :: '%' :: s) ('%' :: r)
  /-- a reference to a value without `%` -/
  | plain {n : Nat} {name v s r : Str} (h1 : name ≠ []) (h2 : ')' ∉ name) (h3 : look (U.lower name) = some v)
      (h4 : '%' ∉ v) (ht : Expands U look (n + 1) s r) :
      Expands U look (n + 1) ('%' :: '(' :: (name ++ ')' :: 's' :: s)) (v ++ r)
  /-- a reference to a value that needs expanding itself -/
  | nested {n : Nat} {name v x s r : Str} (h1 : name ≠ []) (h2 : ')' ∉ name) (h3 : look (U.lower name) = some v)
      (h4 : '%' ∈ v) (hv : Expands U look n v x) (ht : Expands U look (n + 1) s r) :
      Expands U look (n + 1) ('%' :: '(' :: (name ++ ')' :: 's' :: s)) (x ++ r)

/-- How to write the text `s` as a value. -/
def escape (s : Str) : Str := s.flatMap (fun c => if c = '%' then ['%', '%'] else [c])

/-! ### Files -/

/-- A line that can follow an option. -/
inductive ValueLine where
  | blank (spaces : Str)
  | comment (lead : Str) (mark : Char) (text : Str)
  /-- the value goes on -/
  | text (lead : Str) (t : Str) (trail : Str)
deriving DecidableEq, Repr

structure Entry where
  name : Str
  before : Str := []
  delim : Char := '='
  after : Str := []
  first : Str
  trail : Str := []
  more : List ValueLine := []
deriving DecidableEq, Repr

/-- `trail` is ignored text behind the `]`. -/
structure Section where
  name : Str
  trail : Str := []
  notes : List ValueLine := []
  entries : List Entry := []
deriving DecidableEq, Repr

structure Document where
  notes : List ValueLine := []
  sections : List Section := []
deriving DecidableEq, Repr

def ValueLine.line : ValueLine → Str
  | .blank s => s
  | .comment l m t => l ++ m :: t
  | .text l t r => l ++ (t ++ r)

def Entry.lines (e : Entry) : List Str :=
  (e.name ++ (e.before ++ e.delim :: (e.after ++ (e.first ++ e.trail)))) :: e.more.map ValueLine.line

def Section.lines (s : Section) : List Str :=
  ('[' :: (s.name ++ ']' :: s.trail)) :: (s.notes.map ValueLine.line ++ s.entries.flatMap Entry.lines)

def Document.lines (d : Document) : List Str := d.notes.map ValueLine.line ++ d.sections.flatMap Section.lines

/-- The text of a file with the given lines. -/
def textOf (ls : List Str) : Str := ls.flatMap (· ++ ['\n'])

/-- Lines joined by line ends. -/
def joined : List Str → Str
  | [] => []
  | [l] => l
  | l :: ls => l ++ '\n' :: joined ls

/-- What a line adds to the value before it. -/
def ValueLine.adds : ValueLine → List Str
  | .blank _ => [[]]
  | .comment _ _ _ => []
  | .text _ t _ => [t]

/-- The lines of the value of an option. -/
def Entry.valueLines (e : Entry) : List Str := e.first :: e.more.flatMap ValueLine.adds

/-- A text without the spaces at its end. -/
def trimEnd (U : Uni) (s : Str) : Str := (s.reverse.dropWhile U.isSpace).reverse

/-- Spaces, on one line. -/
def Spaces (U : Uni) (s : Str) : Prop := ∀ c ∈ s, U.isSpace c = true ∧ c ≠ '\n'

/-- A text on one line without spaces at its ends. -/
def Trimmed (U : Uni) (s : Str) : Prop :=
  '\n' ∉ s ∧ (∀ c, s.head? = some c → U.isSpace c = false) ∧ (∀ c, s.getLast? = some c → U.isSpace c = false)

def ValueLine.Ok (U : Uni) : ValueLine → Prop
  | .blank s => Spaces U s
  | .comment l m t => Spaces U l ∧ (m = '#' ∨ m = ';') ∧ '\n' ∉ t
  | .text l t r => l ≠ [] ∧ Spaces U l ∧ t ≠ [] ∧ Trimmed U t ∧ t.head? ≠ some '#' ∧ t.head? ≠ some ';' ∧ Spaces U r

/-- A line that is blank or a comment. -/
def ValueLine.Note : ValueLine → Prop
  | .text _ _ _ => False
  | _ => True

structure Entry.Ok (U : Uni) (e : Entry) : Prop where
  name_ne : e.name ≠ []
  lower_ne : U.lower e.name ≠ []
  name_trim : Trimmed U e.name
  name_delim : '=' ∉ e.name ∧ ':' ∉ e.name
  name_head : e.name.head? ≠ some '#' ∧ e.name.head? ≠ some ';' ∧ e.name.head? ≠ some '['
  before : Spaces U e.before
  delim : e.delim = '=' ∨ e.delim = ':'
  after : Spaces U e.after
  first : Trimmed U e.first
  trail : Spaces U e.trail
  more : ∀ l ∈ e.more, l.Ok U

structure Section.Ok (U : Uni) (s : Section) : Prop where
  name_ne : s.name ≠ []
  name : ']' ∉ s.name ∧ '\n' ∉ s.name
  trail : '\n' ∉ s.trail
  notes : ∀ l ∈ s.notes, l.Ok U ∧ l.Note
  entries : ∀ e ∈ s.entries, e.Ok U

structure Document.Ok (U : Uni) (d : Document) : Prop where
  notes : ∀ l ∈ d.notes, l.Ok U ∧ l.Note
  sections : ∀ s ∈ d.sections, s.Ok U

/-- The default section. -/
def theDefault : Str := "DEFAULT".toList

/-- The options of a section by lower-cased name, with the lines of their values. -/
def Section.options (U : Uni) (s : Section) : List (Str × List Str) :=
  s.entries.map (fun e => (U.lower e.name, e.valueLines))

/-- The options of the default section, which may be given in several pieces. -/
def Document.defaults (U : Uni) (d : Document) : List (Str × List Str) :=
  (d.sections.filter (·.name = theDefault)).flatMap (Section.options U)

/-- The other sections. -/
def Document.others (U : Uni) (d : Document) : List (Str × List (Str × List Str)) :=
  (d.sections.filter (·.name ≠ theDefault)).map (fun s => (s.name, s.options U))

/-- Values in one piece. -/
def valuesOf (U : Uni) (d : List (Str × List Str)) : List (Str × Str) := d.map (fun e => (e.1, trimEnd U (joined e.2)))

/-- Nothing is said twice. -/
structure Document.Distinct (U : Uni) (d : Document) : Prop where
  names : ((d.others U).map Prod.fst).Nodup
  defaults : ((d.defaults U).map Prod.fst).Nodup
  options : ∀ s ∈ d.others U, (s.2.map Prod.fst).Nodup

end Verif.Spec
