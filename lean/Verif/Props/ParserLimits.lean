import Verif.Props.ParserMore
/-!
# C91 and C92: the lists of words

Two lists of the parser are shorter than those of the standard: the words that X.681 10.6 reserves lack OCTET, and of the
names that X.660 and X.680 32 give to arcs of object identifiers some are missing. Nor are arcs bounded in the standard.
-/
namespace Hampi.Compiler.Props
open _root_.Hampi.Compiler.Spec

/-- `M DEFINITIONS ::= BEGIN C ::= CLASS { &a INTEGER } WITH SYNTAX { w &a } END`. -/
def classWith (w : Token) : Tokens :=
  header ++ [nm "C", tk .assignment "::=", kw "CLASS", tk .curlyBegin "{", tk .andIdentifier "&a", kw "INTEGER",
    tk .curlyEnd "}", kw "WITH", kw "SYNTAX", tk .curlyBegin "{", w, tk .andIdentifier "&a", tk .curlyEnd "}", kw "END"]

/-- **C91 (violated).** X.681 10.6 reserves OCTET, so that it may not stand in the syntax of a class, but there it is
accepted. -/
theorem C91_octet_violated : ∃ ms, Parses (classWith (kw "OCTET")) (.ok ms) := by
  have h : (match parse 30 (classWith (kw "OCTET")) with | .ok _ => true | _ => false) = true := by decide +kernel
  cases e : parse 30 (classWith (kw "OCTET")) with
  | ok ms => exact ⟨ms, nofun, 30, fun n hn => by rw [C85_result_is_stable hn (by rw [e]; nofun), e]⟩
  | _ => rw [e] at h; cases h

/-- **C92 (violated).** The object identifier of a module may name its arcs without numbers if the standard fixes them.
Modules are refused that do so with `recommendation`, `standard` or `member-body`, as in `{ iso member-body 840 }`,
whatever follows. -/
theorem C92_oid_names_violated (w : String) (hw : w ∈ ["recommendation", "standard", "member-body"])
    (r : String) (hr : r ∈ ["itu-t", "ccitt", "iso"]) (b i j z : Token) (ts : Tokens) (hb : b.type = .curlyBegin)
    (hi : LowerName r.toList i) (hj : LowerName w.toList j) (hz : z.type ≠ .roundBegin ∧ z.type ≠ .comment)
    (hc : NoComments ts) : Parses (nm "M" :: b :: i :: j :: z :: ts) (.err .unknownOid) := by
  refine ⟨nofun, Ev.step (Ev.step (Ev.step (Ev.all fun n => ?_)))⟩
  have hf : (nm "M" :: b :: i :: j :: z :: ts).filter (fun t => !t.is .comment) = nm "M" :: b :: i :: j :: z :: ts :=
    filter_noComments (.cons (by simp [nm]) (.cons (by simp [hb]) (.cons (by simp [hi.type]) (.cons (by simp [hj.type])
      (.cons hz.2 hc)))))
  have h1 : (nm "M").isTypeRef = true := upperM.isTypeRef
  have known : ∃ v, wellKnown i.text = .ok v := by
    rw [hi.2.1]
    simp only [List.mem_cons, List.not_mem_nil, or_false] at hr
    rcases hr with rfl | rfl | rfl <;> exact ⟨_, rfl⟩
  have unknown : wellKnown j.text = .err .unknownOid := by
    rw [hj.2.1]
    simp only [List.mem_cons, List.not_mem_nil, or_false] at hw
    rcases hw with rfl | rfl | rfl <;> rfl
  obtain ⟨v, hv⟩ := known
  have hi1 : i.is .curlyEnd = false := by simp [Token.is, hi.type]
  have hj1 : j.is .curlyEnd = false := by simp [Token.is, hj.type]
  have hi2 : i.is .identifier = true := by simp [Token.is, hi.type]
  have hj2 : j.is .identifier = true := by simp [Token.is, hj.type]
  have hj3 : j.is .roundBegin = false := by simp [Token.is, hj.type]
  have hz1 : z.is .roundBegin = false := by simp [Token.is, hz.1]
  have hb1 : b.is .curlyBegin = true := by simp [Token.is, hb]
  have first : parseNamedOid i (j :: z :: ts) = .ok ((some i.text, v), j :: z :: ts) := by
    unfold parseNamedOid
    cases ts <;> simp [hi.isValueRef, hj3, hv, Out.bind]
  have second : parseNamedOid j (z :: ts) = .err .unknownOid := by
    unfold parseNamedOid
    match ts with
    | [] | [_] | _ :: _ :: _ => simp [hj.isValueRef, hz1, unknown, Out.bind]
  have loop : parseMaybeOid (n + 2) (b :: i :: j :: z :: ts) = .err .unknownOid := by
    simp [parseMaybeOid, hb1, oidLoop, skip, hi1, hj1, parseOidComponent, hi2, hj2, first, second, Out.bind]
  rw [parse, hf, modulesLoop]
  simp [parseModule, parseModuleName, h1, loop, Out.bind]

/-- A module of ANSI. -/
example := C92_oid_names_violated "member-body" (by simp) "iso" (by simp) (tk .curlyBegin "{") (nm "iso")
  (nm "member-body") (tk .numberInt "840") [tk .curlyEnd "}", kw "DEFINITIONS", tk .assignment "::=", kw "BEGIN", kw "END"]
  rfl ⟨rfl, rfl, _, _, rfl, rfl⟩ ⟨rfl, rfl, _, _, rfl, rfl⟩ ⟨nofun, nofun⟩

/-- **C92 (violated).** The arcs of an object identifier may be any numbers; those below 2.25 are UUIDs, of 128 bits.
Modules are refused whose object identifier begins with an arc that is named and has a number of more than 32 bits. -/
theorem C92_large_arc_violated (x : Text) (b i o t e : Token) (ts : Tokens) (hb : b.type = .curlyBegin)
    (hi : LowerName x i) (ho : o.type = .roundBegin) (ht : t.type = .numberInt) (hd : _root_.Hampi.Spec.Digits t.text)
    (hl : 2 ^ 32 ≤ _root_.Hampi.Spec.decimal t.text) (he : e.type = .roundEnd) (hc : NoComments ts) :
    Parses (nm "M" :: b :: i :: o :: t :: e :: ts) (.err .invalidToken) := by
  refine ⟨nofun, Ev.step (Ev.step (Ev.all fun n => ?_))⟩
  have hf : (nm "M" :: b :: i :: o :: t :: e :: ts).filter (fun t => !t.is .comment) = nm "M" :: b :: i :: o :: t :: e :: ts :=
    filter_noComments (.cons (by simp [nm]) (.cons (by simp [hb]) (.cons (by simp [hi.type]) (.cons (by simp [ho])
      (.cons (by simp [ht]) (.cons (by simp [he]) hc))))))
  have h1 : (nm "M").isTypeRef = true := upperM.isTypeRef
  have number : oidNumber t = .err .invalidToken := by
    have hv : ¬ digitsVal t.text < 2 ^ 32 := by rw [digitsVal_eq]; omega
    unfold oidNumber parseUnsigned
    split
    · next v hv' =>
      split at hv'
      · next ds h => have := hd.2 '+' (by simp [h]); simp at this
      · simp [hv] at hv'
    · rfl
  have loop : parseMaybeOid (n + 1) (b :: i :: o :: t :: e :: ts) = .err .invalidToken := by
    simp [parseMaybeOid, oidLoop, skip, parseOidComponent, parseNamedOid, Token.is, hb, hi.type, ho, ht, he, hi.isValueRef,
      number, Out.bind]
  rw [parse, hf, modulesLoop]
  simp [parseModule, parseModuleName, h1, loop, Out.bind]

example := C92_large_arc_violated "a".toList (tk .curlyBegin "{") (nm "a") (tk .roundBegin "(")
  (tk .numberInt "4294967296") (tk .roundEnd ")") [tk .curlyEnd "}", kw "DEFINITIONS", tk .assignment "::=", kw "BEGIN", kw "END"]
  rfl ⟨rfl, rfl, _, _, rfl, rfl⟩ rfl rfl ⟨by decide, by decide⟩ (by decide) rfl

end Hampi.Compiler.Props
