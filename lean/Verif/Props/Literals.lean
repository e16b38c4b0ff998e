import Verif.Props.AAuthLog
import Verif.Props.ToolsLog

/-!
# Texts other theorems only name (C44, C70, C79, C114, C149)

Several theorems say that some message or name is used and refer to it by the name the model gives it. Here these texts are written
out, or tied to another text callers see.
-/

namespace Verif.Props

open Verif.Spec Proofs

/-! ### Certificates -/

/-- C44: signing without a key raises this error, after the body has been encoded if the format has a body. -/
theorem export_without_key {X : Crypto} (c : AttCert) (algo : Str) :
    c.exportAC X (.yes none algo) .text = .error (.exception "Need prvi_key to sign.") ∧
    ∀ f, f = .bytes ∨ f = .base64 ∨ f = .base64full →
      c.exportAC X (.yes none algo) f = (match c.encodeBody with
        | .ok _ => .error (.exception "Need prvi_key to sign.")
        | .error e => .error e) := by
  refine ⟨rfl, ?_⟩
  rintro f (rfl | rfl | rfl) <;>
    simp only [AttCert.exportAC, AttCert.encode] <;> cases c.encodeBody <;> rfl

/-- C70: what a certificate calls the types of its attributes, and the numbers they are encoded as. -/
theorem type_names (t : AttType) : (t.name, t.value) ∈
    ([("AttributeType.NULL".toList, 0), ("AttributeType.INT".toList, 1), ("AttributeType.FLOAT".toList, 2),
      ("AttributeType.STRING".toList, 3), ("AttributeType.BOOL".toList, 4), ("AttributeType.SET".toList, 5)] : List (Str × Nat)) := by
  cases t <;> decide

/-- C70: a certificate without an issuer shows the text `None` in its place, without a line break. -/
theorem text_no_issuer (c : AttCert) (hi : c.issuer = none) (hs : c.signature = none) :
    c.text = .ok (acHeader "TEXT" c.info.version ++ c.info.text ++ "None".toList ++ c.holder.text ++
      textList "ATTRIBUTE SET" ACAttribute.text c.attSet ++ c.revRules.text ++
      (match c.delRules with | none => [] | some d => d.text) ++
      textList "EXTENSIONS" ACExtension.text c.extensions ++ [] ++ "---- END ATTRIBUTE CERTIFICATE ----".toList) := by
  unfold AttCert.text
  rw [hi, hs]
  rfl

/-! ### The attribute authority -/

/-- C79: certificates are signed with the algorithms `info` tells callers, with a colon between them. -/
theorem signed_as_told {X : Crypto} {a : Authority X} {exports : Dict Str} {i : AAInfo} (h : a.info exports = .ok i) :
    aauthSigAlgo = i.signatureAlgorithm ++ ':' :: i.hashAlgorithm := by
  cases hr : exports.get "REMOTE_ADDR".toList with
  | none =>
    unfold Authority.info remoteAddr at h
    rw [hr] at h
    cases h
  | some addr =>
    obtain ⟨id, uri, _, _, rfl⟩ := (info_iff hr i).mp h
    show aauthSigAlgo = "RSASSA-PKCS1-v1_5".toList ++ ':' :: "SHA256".toList
    decide

/-- C114: what is written to the log about an attribute that is not assigned. -/
theorem not_assigned_texts (u i : Str) :
    noIdMsg u (some i) = u ++ " requested the attribute ".toList ++ i ++
      " but they have not been assigned                             that attribute.".toList ∧
    noIdMsg u none = u ++ " requested the attribute None but they have not been assigned                             that attribute.".toList ∧
    noNameMsg u (some i) = u ++ " requested the attribute by name (".toList ++ i ++
      ") but they have not been assigned an attribute with that name.".toList ∧
    noNameMsg u none = u ++
      " requested the attribute by name (None) but they have not been assigned an attribute with that name.".toList := by
  have h1 : " but they have not been assigned ".toList ++ (List.replicate 28 ' ' ++ "that attribute.".toList) =
      " but they have not been assigned                             that attribute.".toList := by decide
  refine ⟨?_, ?_, rfl, ?_⟩
  · simp only [noIdMsg, showOpt, Option.getD_some, List.append_assoc, h1]
  · simp only [noIdMsg, showOpt, Option.getD_none, List.append_assoc, h1, List.append_cancel_left_eq]
    decide
  · simp only [noNameMsg, showOpt, Option.getD_none, List.append_assoc, List.append_cancel_left_eq]
    decide

/-! ### The tables -/

/-- The tables of `hgaa/schema/aauth.py:14-37` and `hgaa/schema/pauth.py:14-74`, each with those it refers to. -/
def schemaTables : Str → List (Str × List Str)
  | base => if base = "aauth".toList then
      [("aauth_attributes".toList, []), ("aauth_users".toList, []),
        ("aauth_attribute_assignments".toList, ["aauth_users".toList, "aauth_attributes".toList])]
    else
      [("pauth_attribute_authorities".toList, []), ("pauth_attributes".toList, []), ("pauth_policies".toList, []),
        ("pauth_attribute_certificates".toList, []),
        ("pauth_attribute_certificate_assignments".toList,
          ["pauth_attribute_certificates".toList, "pauth_sessions".toList]),
        ("pauth_sessions".toList, [])]

/-- C149: wiping covers each table of the schema once, and a table comes before those it refers to. -/
theorem wiped_schema (base : Str) :
    (wipedTables base).Perm ((schemaTables base).map Prod.fst) ∧
    ∀ t ∈ schemaTables base, ∀ r ∈ t.2, (wipedTables base).idxOf t.1 < (wipedTables base).idxOf r := by
  unfold wipedTables schemaTables
  by_cases hb : base = "aauth".toList
  · simp only [hb, if_true]
    refine ⟨by decide +kernel, ?_⟩
    decide +kernel
  · simp only [hb, if_false]
    refine ⟨by decide +kernel, ?_⟩
    decide +kernel

end Verif.Props
