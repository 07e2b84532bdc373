import Verif.Spec.Tokens
import Verif.Spec.NotationDefs
import Verif.Lemmas.Resolve
/-!
# How objects are written

After X.681 11.5 and 11.6: in the syntax that their class defines, each field after the words for it. `ObjectNote
cls set ts` says that the tokens `ts` are a way to write the object of the class `cls` with the settings `set`.
-/
namespace Hampi.Compiler.Spec

open Hampi.Spec (Tiles Same)

/-- The words of the syntax for a field. -/
def syntaxOf : ClassField → Option Text
  | .type _ _ _ w => w
  | .fixedTypeValue _ _ _ _ _ w => w

/-- The text is the words, at least one, with a blank between them. -/
def Phrase (s : Text) (ws : List Text) : Prop :=
  ws ≠ [] ∧ (∀ w ∈ ws, w ≠ [] ∧ ∀ c ∈ w, c.isWhitespace = false) ∧ s = [' '].intercalate ws

/-- A word of the syntax of the class. -/
def ClassWord (cls : List (Text × ClassField)) (w : Text) : Prop :=
  ∃ f ∈ cls, ∃ s ws, syntaxOf f.2 = some s ∧ Phrase s ws ∧ w ∈ ws

/-- A syntax in which every field has words of its own. -/
structure ClearSyntax (cls : List (Text × ClassField)) : Prop where
  names : (cls.map (·.1)).Nodup
  words : ∀ f ∈ cls, ∀ s, syntaxOf f.2 = some s → ∃ ws, Phrase s ws
  distinct : ∀ f ∈ cls, ∀ g ∈ cls, ∀ s, syntaxOf f.2 = some s → syntaxOf g.2 = some s → f = g

/-- The words for a field and what it is set to. -/
inductive SettingNote (cls : List (Text × ClassField)) : Text × ObjectField → Tokens → Prop
  | type {x i o d s hs ty ts} : (x, .type i o d (some s)) ∈ cls → Phrase s (hs.map Token.text) →
      (∀ h ∈ hs, h.type = .identifier ∨ h.type = .keyword) → TypeNote ty ts →
      (∀ t ∈ ts, ¬ ClassWord cls t.text) → SettingNote cls (x, .type (some ty)) (hs ++ ts)
  | value {x i ty u o d s hs v ts} : (x, .fixedTypeValue i ty u o d (some s)) ∈ cls →
      Phrase s (hs.map Token.text) → (∀ h ∈ hs, h.type = .identifier ∨ h.type = .keyword) → ValueNote v ts →
      (∀ t ∈ ts, ¬ ClassWord cls t.text) → SettingNote cls (x, .fixedTypeValue ty (some v)) (hs ++ ts)

/-- Settings, one after the other. -/
inductive SettingsNote (cls : List (Text × ClassField)) : List (Text × ObjectField) → Tokens → Prop
  | nil : SettingsNote cls [] []
  | cons {s ts l us} : SettingNote cls s ts → SettingsNote cls l us → SettingsNote cls (s :: l) (ts ++ us)

/-- An object in curly brackets. No field is set twice. -/
inductive ObjectNote (cls : List (Text × ClassField)) : List (Text × ObjectField) → Tokens → Prop
  | mk {b l ts e} : b.type = .curlyBegin → SettingsNote cls l ts → (l.map (·.1)).Nodup → e.type = .curlyEnd →
      ObjectNote cls l (b :: (ts ++ [e]))

/-- The text of an object, kept from the file, consists of tokens that write the object. -/
def SpellsObject (u : Unicode) (cls : List (Text × ClassField)) (text : Text) (l : List (Text × ObjectField)) : Prop :=
  ∃ ts, Tiles u (fun _ _ => True) [] text ts ∧ ∀ ts', All2 Same ts ts' → ObjectNote cls l ts'

/-- What a field is when it is not set. -/
def defaultOf : ClassField → Option ObjectField
  | .type _ _ (some d) _ => some (.type (some d))
  | .fixedTypeValue _ ty _ _ (some d) _ => some (.fixedTypeValue ty (some d))
  | _ => none

/-- The fields of an object, in the order of their names: those that are set, and the defaults of those that are
not. -/
structure FieldsOf (cls : List (Text × ClassField)) (set fields : List (Text × ObjectField)) : Prop where
  sorted : fields.Pairwise fun a b => a.1 < b.1
  each : ∀ x v, (x, v) ∈ fields ↔
    (x, v) ∈ set ∨ (∀ w, (x, w) ∉ set) ∧ ∃ f, (x, f) ∈ cls ∧ defaultOf f = some v

/-- An element of an object set, as it is written and as it is read. -/
inductive ElementRead (u : Unicode) (cls : List (Text × ClassField)) : SetElement → SetElement → Prop
  | object {text l fields} : SpellsObject u cls text l → FieldsOf cls l fields →
      ElementRead u cls (.object (.input text)) (.object (.fields fields))
  | objectRef {x} : ElementRead u cls (.objectRef x) (.objectRef x)
  | setRef {x} : ElementRead u cls (.setRef x) (.setRef x)

/-- A token as it is in a text, but not a comment, a bit string, a hexadecimal string or a character string. -/
def Lexeme (u : Unicode) (t : Token) : Prop :=
  t.type ∉ [.comment, .tString, .bitString, .hexString] ∧ t.text ≠ [] ∧ ∃ rest, Hampi.Spec.Shape u t.type t.text rest

end Hampi.Compiler.Spec
