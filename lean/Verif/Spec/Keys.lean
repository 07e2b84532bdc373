import Verif.Spec.Derived
/-!
# The key of an open type belongs to its record

In a schema the table constraint `({Set}{@id})` of an open type names a component of the same SEQUENCE.
`Ty.Announced` says that a value obeys this: every open type holds the alternative whose key is the
last key component before it in its own record. The runtime has one key for a whole message instead;
`Ty.keysLocal` is the check under which the two agree.
-/
namespace Hampi

mutual

/-- Every open type in the value holds the first alternative with the key `key` of its record. -/
def Ty.Announced : (t : Ty) → t.Val → (key : Option Int) → Prop
  | .sequence _ _ fs, v, _ => fs.Announced v none
  | .sequenceOf _ _ _ e, v, _ => ∀ x ∈ (show List e.Val from v), e.Announced x none
  | .choice _ _ _ as, v, _ => as.Announced v
  | .openType as, v, key => (∃ k, key = some k ∧ as.Selects k v) ∧ as.Announced v
  | .boolean, _, _ | .null, _, _ | .integer .., _, _ | .enumerated .., _, _
  | .bitstring .., _, _ | .octetstring .., _, _ | .charstring .., _, _
  | .objectIdentifier, _, _ => True

/-- Field by field; a key field announces the open types after it. -/
def Fields.Announced : (fs : Fields) → fs.Val → (key : Option Int) → Prop
  | .nil, _, _ => True
  | .required k t rest, v, key => t.Announced v.1 key ∧
      rest.Announced v.2 (keyAfterField k t v.1 key)
  | .optional _ t rest, v, key =>
      (match v.1 with | some x => t.Announced x key | none => True) ∧ rest.Announced v.2 key

/-- An alternative starts without a key. -/
def Alts.Announced : (as : Alts) → as.Val → Prop
  | .cons _ _ t _, .inl v => t.Announced v none
  | .cons _ _ _ rest, .inr v => rest.Announced v

end

mutual

/-- A key field occurs somewhere inside. -/
def Ty.setsKey : Ty → Bool
  | .sequence _ _ fs => fs.setsKey
  | .sequenceOf _ _ _ e => e.setsKey
  | .choice _ _ _ as | .openType as => as.setsKey
  | .boolean | .null | .integer .. | .enumerated .. | .bitstring .. | .octetstring .. | .charstring ..
  | .objectIdentifier => false

/-- In some field. -/
def Fields.setsKey : Fields → Bool
  | .nil => false
  | .required k t rest => k || t.setsKey || rest.setsKey
  | .optional _ t rest => t.setsKey || rest.setsKey

/-- In some variant. -/
def Alts.setsKey : Alts → Bool
  | .nil => false
  | .cons _ _ t rest => t.setsKey || rest.setsKey

end

/-- A type whose values are keys. -/
def Ty.isKey : Ty → Bool
  | .integer .. | .enumerated .. | .boolean => true
  | _ => false

mutual

/-- Every open type is a component of a record that has a key component before it, and nothing between
the two sets another key. `key` tells whether the record's key is still in force. -/
def Ty.keysLocal : Ty → (key : Bool) → Bool
  | .sequence _ _ fs, _ => fs.keysLocal false
  | .sequenceOf _ _ _ e, _ => e.keysLocal false
  | .choice _ _ _ as, _ => as.keysLocal
  | .openType as, key => key && as.keysLocal
  | .boolean, _ | .null, _ | .integer .., _ | .enumerated .., _ | .bitstring .., _
  | .octetstring .., _ | .charstring .., _ | .objectIdentifier, _ => true

/-- Field by field. -/
def Fields.keysLocal : Fields → (key : Bool) → Bool
  | .nil, _ => true
  | .required k t rest, key =>
      t.keysLocal key && rest.keysLocal ((k && t.isKey) || (key && !t.setsKey))
  | .optional _ t rest, key => t.keysLocal key && rest.keysLocal (key && !t.setsKey)

/-- All variants. -/
def Alts.keysLocal : Alts → Bool
  | .nil => true
  | .cons _ _ t rest => t.keysLocal false && rest.keysLocal

end

end Hampi
