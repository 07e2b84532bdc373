/-!
# The passages of a specification

A specification marks its formal passages: each begins with a paragraph `-- ASN1START` and ends with the next
paragraph `-- ASN1STOP`, or with the end of the document.
-/
namespace Hampi.Extract.Spec

/-- The paragraph that begins a passage, possibly with a line break at its end. -/
def Opens (p : List Char) : Prop := p = "-- ASN1START".toList ∨ p = "-- ASN1START\n".toList

/-- The paragraph that ends a passage. -/
def Closes (p : List Char) : Prop := p = "-- ASN1STOP".toList ∨ p = "-- ASN1STOP\n".toList

/-- The document has exactly these passages, in this order. -/
inductive Passages : (document : List (List Char)) → (passages : List (List (List Char))) → Prop
  | none {prose : List (List Char)} : (∀ p ∈ prose, ¬ Opens p) → Passages prose []
  | closed {prose body rest : List (List Char)} {s e : List Char} {qs : List (List (List Char))} :
      (∀ p ∈ prose, ¬ Opens p) → Opens s → (∀ p ∈ body, ¬ Closes p) → Closes e → Passages rest qs →
      Passages (prose ++ (s :: body ++ [e]) ++ rest) ((s :: body ++ [e]) :: qs)
  | unclosed {prose body : List (List Char)} {s : List Char} :
      (∀ p ∈ prose, ¬ Opens p) → Opens s → (∀ p ∈ body, ¬ Closes p) →
      Passages (prose ++ s :: body) [s :: body]

/-- The paragraphs as lines of a file. -/
def lines (paragraphs : List (List Char)) : List Char := paragraphs.flatMap (· ++ ['\n'])

end Hampi.Extract.Spec
