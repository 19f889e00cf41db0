import Verif.Model.Lookup
/-
When the method call in derived code reaches crevice's trait.
-/
namespace Crevice

/-- `AsStdN` is in scope where the derive is: its method is visible on the field's type. -/
def ScopedField.InScope (f : ScopedField) : Prop :=
  ∃ t r m, f.types = t :: r ∧ m ∈ t.methods ∧ m.origin = .crevice

/-- What holds of every field of a program that compiles up to here: a type has at most one inherent
method of the name and each trait one; crevice's takes `&self` and is the field's conversion; and if
the trait is in scope it is so for the field's type, which implements it. -/
structure ScopedField.Wf (f : ScopedField) : Prop where
  first : ∃ t r, f.types = t :: r
  crevice : ∀ t r m, f.types = t :: r → m ∈ t.methods → m.origin = .crevice →
    m.receiver = .ref ∧ m.typed = true ∧ m.body = f.impl.asStd
  distinct : ∀ t ∈ f.types, (t.methods.map Method.origin).Nodup
  scope : ∀ t ∈ f.types, ∀ m ∈ t.methods, m.origin = .crevice → f.InScope

/-- The field's type has no other method `as_stdN` that takes `self` or `&self`. -/
def ScopedField.NoOther (f : ScopedField) : Prop :=
  ∀ t r m, f.types = t :: r → m ∈ t.methods → m.origin ≠ .crevice → m.receiver = .mutRef

end Crevice
