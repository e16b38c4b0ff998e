import Verif.Model.AST
/-!
# The HGPLv2 grammar (`hgpl/docs/HGPL_ABNF_V2.txt`) over tokens, and the AST of a derivation

The derivation rules follow the ABNF line by line and do not mention the parser. The parameter `b` says
whether `boolean` counts as `atomic`: the ABNF has `b = true`, the code implements `b = false` (the
ABNF file lists this as a TODO).
-/

namespace Verif.Spec
open Verif

/-- `var` of the ABNF, as a syntax tree. -/
inductive Operand where
  | att (t : Token)
  | atom (t : Token)
  | set (l : Token) (es : List Token)
deriving DecidableEq, Repr

/-- `policy` of the ABNF, as a syntax tree; parentheses leave no trace. -/
inductive Policy where
  | cmp (l : Operand) (o : Token) (r : Operand)
  | lit (t : Token)
  | att (t : Token)
  | not (n : Token) (p : Policy)
  | bin (o : Token) (p q : Policy)
deriving DecidableEq, Repr

/-- `att_name` -/
def AttTok (t : Token) : Prop :=
  t.type = .usrAtt ∨ t.type = .objAtt ∨ t.type = .envAtt ∨ t.type = .admAtt ∨ t.type = .conAtt
/-- `atomic` -/
def AtomTok (b : Bool) (t : Token) : Prop :=
  t.type = .int ∨ t.type = .float ∨ t.type = .string ∨ t.type = .null ∨ (b = true ∧ t.type = .bool)
/-- `boolean`; the token carries its spelling. -/
def BoolTok (t : Token) : Prop := t.type = .bool ∧ ∃ s, t.value = .str s
/-- `"AND"` -/
def AndTok (t : Token) : Prop := t.type = .boolOp ∧ t.value = .str "AND".toList
/-- `"OR"` -/
def OrTok (t : Token) : Prop := t.type = .boolOp ∧ t.value = .str "OR".toList

instance (t : Token) : Decidable (AttTok t) := by unfold AttTok; infer_instance
instance (b : Bool) (t : Token) : Decidable (AtomTok b t) := by unfold AtomTok; infer_instance
instance (t : Token) : Decidable (AndTok t) := by unfold AndTok; infer_instance
instance (t : Token) : Decidable (OrTok t) := by unfold OrTok; infer_instance

/-- `setval = atomic / atomic "," setval` -/
inductive DSetVal (b : Bool) : List Token → List Token → Prop
  | one {t} (ht : AtomTok b t) : DSetVal b [t] [t]
  | cons {t c ts es} (ht : AtomTok b t) (hc : c.type = .comma) (h : DSetVal b ts es) :
      DSetVal b (t :: c :: ts) (t :: es)

/-- `var = const / att_name`, `const = atomic / set`, `set = "{" "}" / "{" setval "}"` -/
inductive DVar (b : Bool) : List Token → Operand → Prop
  | att {t} (ht : AttTok t) : DVar b [t] (.att t)
  | atom {t} (ht : AtomTok b t) : DVar b [t] (.atom t)
  | empty {l r} (hl : l.type = .lset) (hr : r.type = .rset) : DVar b [l, r] (.set l [])
  | set {l r ts es} (hl : l.type = .lset) (h : DSetVal b ts es) (hr : r.type = .rset) :
      DVar b (l :: (ts ++ [r])) (.set l es)

mutual
/-- `exp = var op var / [ "NOT" ] bool_var / [ "NOT" ] "(" policy ")"` -/
inductive DExp (b : Bool) : List Token → Policy → Prop
  | cmp {ts o us l r} (hl : DVar b ts l) (ho : o.type = .op) (hr : DVar b us r) :
      DExp b (ts ++ o :: us) (.cmp l o r)
  | lit {t} (ht : BoolTok t) : DExp b [t] (.lit t)
  | att {t} (ht : AttTok t) : DExp b [t] (.att t)
  | notLit {n t} (hn : n.type = .notOp) (ht : BoolTok t) : DExp b [n, t] (.not n (.lit t))
  | notAtt {n t} (hn : n.type = .notOp) (ht : AttTok t) : DExp b [n, t] (.not n (.att t))
  | paren {l r ts p} (hl : l.type = .lparn) (h : DPolicy b ts p) (hr : r.type = .rparn) :
      DExp b (l :: (ts ++ [r])) p
  | notParen {n l r ts p} (hn : n.type = .notOp) (hl : l.type = .lparn) (h : DPolicy b ts p)
      (hr : r.type = .rparn) : DExp b (n :: l :: (ts ++ [r])) (.not n p)
/-- `term = term "AND" exp / exp` -/
inductive DTerm (b : Bool) : List Token → Policy → Prop
  | exp {ts p} (h : DExp b ts p) : DTerm b ts p
  | and {ts o us p q} (hp : DTerm b ts p) (ho : AndTok o) (hq : DExp b us q) :
      DTerm b (ts ++ o :: us) (.bin o p q)
/-- `policy = policy "OR" term / term` -/
inductive DPolicy (b : Bool) : List Token → Policy → Prop
  | term {ts p} (h : DTerm b ts p) : DPolicy b ts p
  | or {ts o us p q} (hp : DPolicy b ts p) (ho : OrTok o) (hq : DTerm b us q) :
      DPolicy b (ts ++ o :: us) (.bin o p q)
end

/-! ### The AST of a syntax tree -/

/-- Node class of an attribute token. -/
def attKind : TokenType → Kind
  | .usrAtt => .usrAtt
  | .objAtt => .objAtt
  | .envAtt => .envAtt
  | .admAtt => .admAtt
  | _ => .conAtt

/-- Node class of an atomic token. -/
def atomKind : TokenType → Kind
  | .int => .intVal
  | .float => .floatVal
  | .string => .stringVal
  | _ => .nullVal

/-- Initial result of an atomic constant: its value, or the null object. -/
def atomRes (t : Token) : Res :=
  if t.type = .null then .atom .null
  else match t.value with
    | .none => .none
    | .str s => .atom (.str s)
    | .int i => .atom (.int i)
    | .flt f => .atom (.flt f)

/-- Truth value of a boolean literal. -/
def litTri (U : Uni) (t : Token) : Tri :=
  match t.value with
  | .str s =>
    if U.upper s = "TRUE".toList then .true
    else if U.upper s = "FALSE".toList then .false else .undef
  | _ => .undef

/-- The node of an attribute with id `k`. -/
def attNode (t : Token) (k : Nat) : Node := .mk (attKind t.type) t k .none []
/-- The node of an atomic constant with id `k`. -/
def atomNode (t : Token) (k : Nat) : Node := .mk (atomKind t.type) t k (atomRes t) []
/-- The nodes of consecutive constants with ids from `k` on. -/
def atomNodes : List Token → Nat → List Node
  | [], _ => []
  | t :: ts, k => atomNode t k :: atomNodes ts (k + 1)

/-- The AST of an operand whose nodes get ids from `k` on, and the next free id. -/
def Operand.build : Operand → Nat → Node × Nat
  | .att t, k => (attNode t k, k + 1)
  | .atom t, k => (atomNode t k, k + 1)
  | .set l es, k => (.mk .set l (k + es.length) .none (atomNodes es k), k + es.length + 1)

/-- The AST of a policy whose nodes get ids from `k` on, children first, and the next free id. -/
def Policy.build (U : Uni) : Policy → Nat → Node × Nat
  | .cmp l o r, k =>
    let (a, k1) := l.build k
    let (b, k2) := r.build k1
    (.mk .op o k2 .none [a, b], k2 + 1)
  | .lit t, k => (.mk .boolVal t k (.tri (litTri U t)) [], k + 1)
  | .att t, k => (attNode t k, k + 1)
  | .not n p, k =>
    let (a, k1) := p.build U k
    (.mk .not n k1 .none [a], k1 + 1)
  | .bin o p q, k =>
    let (a, k1) := p.build U k
    let (b, k2) := q.build U k1
    (.mk .boolOp o k2 .none [a, b], k2 + 1)

/-! ### Tokens of a syntax tree in source order -/

def Operand.tokens : Operand → List Token
  | .att t => [t]
  | .atom t => [t]
  | .set l es => l :: es

def Policy.tokens : Policy → List Token
  | .cmp l o r => l.tokens ++ o :: r.tokens
  | .lit t => [t]
  | .att t => [t]
  | .not n p => n :: p.tokens
  | .bin o p q => p.tokens ++ o :: q.tokens

/-- Tokens that leave no trace in the AST: parentheses, commas and closing braces. -/
def Punct (t : Token) : Bool :=
  t.type == .lparn || t.type == .rparn || t.type == .comma || t.type == .rset

end Verif.Spec
