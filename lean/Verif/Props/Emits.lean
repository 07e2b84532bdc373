import Verif.Lemmas.Emits
/-!
# What the derive macro makes of any item (C144)

`derive i` (Derive/Macro.lean): what `#[derive(AperCodec)]` makes of the Rust item `i`. `Emits i impl`
(Spec/Emits.lean): what it is meant to make of it, told by the entries that stand last in the attributes.
`MacroPanics i`: a bound is no numeral of 128 bits, or a CHOICE lacks one.
-/
namespace Hampi.Compiler.Props
open Hampi.Derive
open _root_.Hampi.Compiler.Spec

/-- **C144.** For every item, written by hand or generated: an implementation is made exactly if the item asks for
it, and it is that one. -/
theorem C144_emits (i : Input) (impl : Impl) : derive i = .ok impl ↔ Emits i impl := derive_emits i impl

/-- **C144.** The macro panics exactly if a bound cannot be read. -/
theorem C144_panics (i : Input) : derive i = .panic ↔ MacroPanics i := (derive_panics i).2

/-- **C144.** Every other item is refused with an error. -/
theorem C144_refused (i : Input) : derive i = .err () ↔ (¬ ∃ impl, Emits i impl) ∧ ¬ MacroPanics i := by
  constructor
  · intro h
    refine ⟨fun ⟨impl, he⟩ => ?_, fun hp => ?_⟩
    · rw [(C144_emits i impl).2 he] at h; cases h
    · rw [(C144_panics i).2 hp] at h; cases h
  · rintro ⟨h1, h2⟩
    cases hd : derive i with
    | ok impl => exact absurd ⟨impl, (C144_emits i impl).1 hd⟩ h1
    | panic => exact absurd ((C144_panics i).1 hd) h2
    | err e => cases e; rfl
    | diverge => exact absurd hd (derive_panics i).1

/-- **C144.** An item asks for one implementation at most. -/
theorem C144_one (i : Input) (a b : Impl) (ha : Emits i a) (hb : Emits i b) : a = b := by
  have h := (C144_emits i a).2 ha
  rw [(C144_emits i b).2 hb] at h
  cases h
  rfl

/-! ## Examples -/

/-- `#[asn(type = "INTEGER", lb = "0", ub = "7")] #[asn(lb = "-2")] struct Level(i8);`. -/
def levelItem : Input where
  attrs := [⟨"asn".toList, .list [.nameValue "type".toList (.str "INTEGER".toList),
      .nameValue "lb".toList (.str "0".toList), .nameValue "ub".toList (.str "7".toList)]⟩,
    ⟨"asn".toList, .list [.nameValue "lb".toList (.str "-2".toList)]⟩]
  ident := "Level".toList
  data := .tuple [.name "i8".toList]

/-- The second `lb` counts. -/
example : Emits levelItem (.integer (.name "i8".toList) (some (-2)) (some 7) false) :=
  (C144_emits _ _).1 (by
    simp [derive, levelItem, tyParams, readAttrs, addAll, TyParams.add, generateCodec, single, bounds, boundOf, Out.bind,
      show parseI128 ['-', '2'] = some (-2) by decide +kernel, show parseI128 ['7'] = some 7 by decide +kernel])

/-- A newtype of two fields is refused. -/
example : ¬ ∃ impl, Emits { levelItem with data := .tuple [.name "i8".toList, .name "i8".toList] } impl :=
  ((C144_refused _).1 (by
    simp [derive, levelItem, tyParams, readAttrs, addAll, TyParams.add, generateCodec, single, Out.bind])).1

/-- `#[asn(type = "CHOICE", lb = "0")] enum E { #[asn(key = 0)] A(X) }`. -/
def halfChoice : Input where
  attrs := [⟨"asn".toList, .list [.nameValue "type".toList (.str "CHOICE".toList),
      .nameValue "lb".toList (.str "0".toList)]⟩]
  ident := "E".toList
  data := .enum [⟨[⟨"asn".toList, .list [.nameValue "key".toList (.int 0)]⟩], "A".toList, .tuple [.name "X".toList]⟩]

/-- It lacks a bound. -/
example : MacroPanics halfChoice :=
  (C144_panics _).1 (by
    simp [derive, halfChoice, tyParams, readAttrs, addAll, TyParams.add, generateCodec, Out.bind, choiceBound,
      show parseI128 ['0'] = some 0 by decide +kernel])

end Hampi.Compiler.Props
