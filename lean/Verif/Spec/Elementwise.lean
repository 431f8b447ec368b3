import Verif.Base.Res

/-! Specification of element-wise functions of vectors of equal sizes: the output has the size of the inputs and its i-th element
is the value of the scalar function on the i-th inputs. -/

namespace Gridpp.Spec
open Res

def Elementwise2 {α β γ : Type} (f : α → β → Res γ) (a : List α) (b : List β) (out : List γ) : Prop :=
  out.length = a.length ∧ ∀ (i : Nat) x y, a[i]? = some x → b[i]? = some y → ∃ v, out[i]? = some v ∧ f x y = ok v

def Elementwise3 {α β δ γ : Type} (f : α → β → δ → Res γ) (a : List α) (b : List β) (c : List δ) (out : List γ) : Prop :=
  out.length = a.length ∧ ∀ (i : Nat) x y z, a[i]? = some x → b[i]? = some y → c[i]? = some z → ∃ v, out[i]? = some v ∧ f x y z = ok v

def Elementwise4 {α β δ ε γ : Type} (f : α → β → δ → ε → Res γ) (a : List α) (b : List β) (c : List δ) (d : List ε) (out : List γ) : Prop :=
  out.length = a.length ∧ ∀ (i : Nat) x y z w, a[i]? = some x → b[i]? = some y → c[i]? = some z → d[i]? = some w →
    ∃ v, out[i]? = some v ∧ f x y z w = ok v

def Elementwise5 {α β δ ε ζ γ : Type} (f : α → β → δ → ε → ζ → Res γ) (a : List α) (b : List β) (c : List δ) (d : List ε) (e : List ζ)
    (out : List γ) : Prop :=
  out.length = a.length ∧ ∀ (i : Nat) x y z w u, a[i]? = some x → b[i]? = some y → c[i]? = some z → d[i]? = some w → e[i]? = some u →
    ∃ v, out[i]? = some v ∧ f x y z w u = ok v

end Gridpp.Spec
