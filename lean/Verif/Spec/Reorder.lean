import Verif.Spec.NotationDefs
/-!
# A module whose definitions stand in another order
-/
namespace Hampi.Compiler.Spec

/-- Two ways to write a module that differ in the order of the imports and of the definitions. Every name is imported or
defined once. -/
inductive Reordered : Tokens → Tokens → Prop
  | mk {x n os d gs a b l l' is is' ds ds' ts ts' e} : UpperName x n → OidNote os → Word "DEFINITIONS" d →
      TagsNote gs → a.type = .assignment → Word "BEGIN" b → ImportsNote l is → ImportsNote l' is' → l'.Perm l →
      (l.map (·.1)).Nodup → DefsNote ds ts → DefsNote ds' ts' → ds'.Perm ds → (ds.map (·.id)).Nodup →
      Word "END" e →
      Reordered (n :: (os ++ d :: (gs ++ a :: b :: (is ++ (ts ++ [e])))))
        (n :: (os ++ d :: (gs ++ a :: b :: (is' ++ (ts' ++ [e])))))

end Hampi.Compiler.Spec
