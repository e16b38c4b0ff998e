import Verif.Model.AAuth
import Verif.Model.AttCert

/-!
# Model of the reading of `services.ini` and `clients.ini`, `hgaa/config.py:42-53`

`hgaa/config.py` leaves reading the files and the expansion of `%` in values to `configparser.ConfigParser()`. This file
models that class as the module uses it: `=` and `:` separate options from values, lines beginning with `#` or `;` are
comments, nothing else is, sections and options must not be repeated, options need a value, `DEFAULT` is the default
section and values are expanded by `BasicInterpolation`. The definitions follow CPython's `Lib/configparser.py`
(`RawConfigParser._read`, `RawConfigParser.get` and `BasicInterpolation`). Decoding the bytes of a file is not modelled.
The name of a section ends at the first `]` of the line, as in the Python 3 versions current when the code was written;
recent ones end it at the last `]`.
-/

namespace Verif

/-- The exceptions of `configparser` that can leave `hgaa/config.py`. -/
inductive IniError where
  | duplicateSection (sect : Str)
  | duplicateOption (sect option : Str)
  | missingSectionHeader
  | parsing
  | interpolationSyntax
  | interpolationMissingOption
  | interpolationDepth
  | outOfFuel
deriving DecidableEq, Repr

/-- The lines of a file, without their ends: there is no line behind the last `\n`. -/
def fileLines (t : Str) : List Str :=
  let ls := splitLines t
  if ls.getLast? = some [] then ls.dropLast else ls

/-- `SECTCRE`, `\[([^]]+)\]`: the name of a section if the line begins with a header. -/
def sectHeader (value : Str) : Option Str :=
  match value with
  | '[' :: s =>
    let name := s.takeWhile (· ≠ ']')
    if name ≠ [] ∧ (s.dropWhile (· ≠ ']')).head? = some ']' then some name else none
  | _ => none

/-- `=` and `:`. -/
def iniDelim (c : Char) : Bool := c = '=' || c = ':'

/-- `OPTCRE`, `(.*?)\s*(=|:)\s*(.*)$`: what stands before and behind the first delimiter. -/
def optionLine (U : Uni) (value : Str) : Option (Str × Str) :=
  match value.dropWhile (fun c => !iniDelim c) with
  | [] => none
  | _ :: v => some (((value.takeWhile (fun c => !iniDelim c)).reverse.dropWhile U.isSpace).reverse, pyStrip U v)

/-- The state of `_read`: the lines of the values read so far, `elements_added`, the names of the current section and option,
the indentation of the last header or option line, and whether a line could not be parsed. -/
structure IniState where
  defaults : Dict (List Str) := []
  sections : Dict (Dict (List Str)) := []
  seen : List (Str × Option Str) := []
  sect : Option Str := none
  option : Option Str := none
  indent : Nat := 0
  bad : Bool := false
deriving DecidableEq, Repr

/-- The values of the section called `s`. -/
def IniState.values (st : IniState) (s : Str) : Dict (List Str) :=
  if s = defaultSect then st.defaults else (st.sections.get s).getD []

/-- `cursect[o] = ls`. -/
def IniState.store (st : IniState) (s o : Str) (ls : List Str) : IniState :=
  if s = defaultSect then { st with defaults := st.defaults.put o ls }
  else { st with sections := st.sections.put s (((st.sections.get s).getD []).put o ls) }

/-- The section and the option a line may belong to: `cursect is not None and optname`. -/
def IniState.current (st : IniState) : Option (Str × Str) :=
  match st.sect, st.option with
  | some s, some o => if o = [] then none else some (s, o)
  | _, _ => none

/-- `cursect[optname].append(value)` -/
def IniState.append (st : IniState) (s o : Str) (value : Str) : IniState :=
  st.store s o (((st.values s).get o).getD [] ++ [value])

/-- A section header. -/
def IniState.header (st : IniState) (name : Str) : Except IniError IniState :=
  if name = defaultSect then .ok { st with sect := some name, option := none }
  else if (st.sections.get name).isSome then
    if (name, none) ∈ st.seen then .error (.duplicateSection name)
    else .ok { st with sect := some name, option := none, seen := (name, none) :: st.seen }
  else .ok { st with sections := st.sections.put name [], sect := some name, option := none, seen := (name, none) :: st.seen }

/-- A line in section `s` that is neither a header nor a continuation. -/
def IniState.optionLine (U : Uni) (st : IniState) (s value : Str) : Except IniError IniState :=
  match Verif.optionLine U value with
  | none => .ok { st with bad := true }
  | some (o, v) =>
    let st := if o = [] then { st with bad := true } else st
    let o := U.lower o
    if (s, some o) ∈ st.seen then .error (.duplicateOption s o)
    else .ok { (st.store s o [v]) with option := some o, seen := (s, some o) :: st.seen }

/-- One line of `_read`. -/
def iniLine (U : Uni) (st : IniState) (line : Str) : Except IniError IniState :=
  let value := pyStrip U line
  if value.head? = some '#' ∨ value.head? = some ';' then .ok st
  else if value = [] then .ok (st.current.elim st (fun c => st.append c.1 c.2 []))
  else
    let indent := (line.takeWhile U.isSpace).length
    match (if indent > st.indent then st.current else none) with
    | some (s, o) => .ok (st.append s o value)
    | none =>
      let st := { st with indent := indent }
      match sectHeader value with
      | some name => st.header name
      | none =>
        match st.sect with
        | none => .error .missingSectionHeader
        | some s => st.optionLine U s value

/-- All lines. -/
def iniLines (U : Uni) : IniState → List Str → Except IniError IniState
  | st, [] => .ok st
  | st, l :: ls => do
    let st ← iniLine U st l
    iniLines U st ls

/-- `'\n'.join(val)` -/
def joinLines : List Str → Str
  | [] => []
  | [l] => l
  | l :: ls => l ++ '\n' :: joinLines ls

/-- `_join_multiline_values`. -/
def joinValues (U : Uni) (d : Dict (List Str)) : Dict Str :=
  d.map (fun e => (e.1, ((joinLines e.2).reverse.dropWhile U.isSpace).reverse))

/-- `_read`: the values as written, before the expansion of `%`. -/
def readIni (U : Uni) (text : Str) : Except IniError Ini := do
  let st ← iniLines U {} (fileLines text)
  if st.bad then .error .parsing
  else .ok { defaults := joinValues U st.defaults, sections := st.sections.map (fun e => (e.1, joinValues U e.2)) }

/-- What `open` makes of line ends. -/
def universalNewlines : Str → Str
  | [] => []
  | '\r' :: '\n' :: s => '\n' :: universalNewlines s
  | '\r' :: s => '\n' :: universalNewlines s
  | c :: s => c :: universalNewlines s

/-- `ConfigParser().read(path)`: a file that cannot be opened is passed over. -/
def readIniFile (U : Uni) (file : Option Str) : Except IniError Ini :=
  file.elim (.ok {}) (fun t => readIni U (universalNewlines t))

/-- The module's two parsers, `hgaa/config.py:42-53`; an exception leaves the module. -/
def readConfig (U : Uni) (services clients : Option Str) : Except IniError Config := do
  let s ← readIniFile U services
  let c ← readIniFile U clients
  return { service := s, client := c }

/-! ### `BasicInterpolation` -/

/-- `_KEYCRE`, `%\(([^)]+)\)s`, behind the `%(`: the name and what follows the `)s`. -/
def keyRef (s : Str) : Option (Str × Str) :=
  let name := s.takeWhile (· ≠ ')')
  if name = [] then none
  else match s.dropWhile (· ≠ ')') with
    | ')' :: 's' :: rest => some (name, rest)
    | _ => none

/-- What a reference to the value `v` adds. -/
def refValue (nested : Str → Except IniError Str) (v : Str) : Except IniError Str := if '%' ∈ v then nested v else .ok v

/-- The loop of `_interpolate_some`; the code cuts at the next `%` instead of going character by character. `nested` is
the recursive call. -/
def expandLoop (U : Uni) (look : Str → Option Str) (nested : Str → Except IniError Str) : Nat → Str → Except IniError Str
  | 0, _ => .error .outOfFuel
  | _ + 1, [] => .ok []
  | n + 1, c :: s =>
    if c ≠ '%' then do
      let r ← expandLoop U look nested n s
      return c :: r
    else
      match s with
      | '%' :: s => do
        let r ← expandLoop U look nested n s
        return '%' :: r
      | '(' :: s =>
        match keyRef s with
        | none => .error .interpolationSyntax
        | some (name, rest) =>
          match look (U.lower name) with
          | none => .error .interpolationMissingOption
          | some v => do
            let x ← refValue nested v
            let r ← expandLoop U look nested n rest
            return x ++ r
      | _ => .error .interpolationSyntax

/-- `_interpolate_some` when `levels` more levels of references are allowed. -/
def expand (U : Uni) (look : Str → Option Str) : Nat → Str → Except IniError Str
  | 0, _ => .error .interpolationDepth
  | n + 1, s => expandLoop U look (expand U look n) (s.length + 1) s

/-- `MAX_INTERPOLATION_DEPTH` -/
def maxDepth : Nat := 10

/-- The options visible in a section with values `d`. -/
def Ini.look (i : Ini) (d : Dict Str) (k : Str) : Option Str := (d.get k).or (i.defaults.get k)

/-- `parser[sect].get(option, None)` for a section with values `d`. -/
def Ini.value (U : Uni) (i : Ini) (d : Dict Str) (option : Str) : Except IniError (Option Str) :=
  match i.look d (U.lower option) with
  | none => .ok none
  | some v => do
    let r ← expand U (i.look d) maxDepth v
    return some r

/-- `get_conf`, `hgaa/config.py:56-87`, on the values as written, with at most `fuel` nested calls. -/
def getTextN (U : Uni) (c : Config) : Nat → Str → Bool → Str → Except IniError (Option Str)
  | 0, _, _, _ => .error .outOfFuel
  | fuel + 1, valName, service, sect => do
    let valName := U.upper valName
    let sect := U.upper sect
    let ini := c.ini service
    let conf := ini.sections.get sect
    let sect := if conf.isSome then sect else defaultSect
    let val ← ini.value U (conf.getD []) valName
    match val with
    | some v => .ok (some v)
    | none =>
      if sect = defaultSect then .ok ((builtinConfigs service).get valName).join
      else getTextN U c fuel valName service defaultSect

/-- `get_conf` on the values as written. -/
def getText (U : Uni) (c : Config) (valName : Str) (service : Bool) (sect : Str) : Except IniError (Option Str) :=
  getTextN U c 2 valName service sect

/-- The values of a section as `get` returns them. -/
def Ini.resolveSect (U : Uni) (i : Ini) (d : Dict Str) : Dict Str → Except IniError (Dict Str)
  | [] => .ok []
  | (k, v) :: es => do
    let x ← expand U (i.look d) maxDepth v
    let xs ← i.resolveSect U d es
    return (k, x) :: xs

/-- All values as `get` returns them: those of `DEFAULT` are expanded anew for every section. The model of the rest of
the code takes the configuration in this form. -/
def Ini.resolveAll (U : Uni) (i : Ini) : Dict (Dict Str) → Except IniError (Dict (Dict Str))
  | [] => .ok []
  | (s, d) :: ds => do
    let x ← i.resolveSect U d (d ++ i.defaults)
    let xs ← i.resolveAll U ds
    return (s, x) :: xs

def Ini.resolve (U : Uni) (i : Ini) : Except IniError Ini := do
  let defaults ← i.resolveSect U [] i.defaults
  let sections ← i.resolveAll U i.sections
  return { defaults := defaults, sections := sections }

def Config.resolve (U : Uni) (c : Config) : Except IniError Config := do
  let s ← c.service.resolve U
  let k ← c.client.resolve U
  return { service := s, client := k }

end Verif
