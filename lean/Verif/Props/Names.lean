import Verif.Model.Names
import Verif.Spec.Names

/-! C168: statistics are chosen by their names. -/

namespace Gridpp.Props
open Spec

/-- A text names at most one statistic. -/
theorem c168_unique {name : List Char} {s t : Statistic} (hs : Named name s) (ht : Named name t) : s = t := by
  obtain ⟨i, hi, rfl⟩ := hs
  obtain ⟨j, hj, h⟩ := ht
  cases s <;> cases hi <;> cases t <;> cases hj <;> first | rfl | exact absurd h (by decide)

/-- `get_statistic` gives a statistic other than `Unknown` exactly for its name, all of them except the variance; any other text, such as one with a capital
letter or a space, gives `Unknown`. Missing: the name of the variance. -/
theorem c168_names_partial (name : List Char) :
    (∀ s, s ≠ .unknown → (getStatistic name = s ↔ Named name s ∧ s ≠ .variance)) ∧
    (getStatistic name = .unknown ↔ ∀ s, Named name s → s = .variance) := by
  have key : ∀ s, s ≠ .unknown → (getStatistic name = s ↔ Named name s ∧ s ≠ .variance) := by
    intro s hs
    constructor
    · intro h
      unfold getStatistic at h
      split_ifs at h with h1 h2 h3 h4 h5 h6 h7 h8 h9 <;> subst h <;>
        first
        | exact absurd rfl hs
        | refine ⟨⟨_, rfl, ?_⟩, by decide⟩; simp only [*]; decide
    · rintro ⟨⟨i, hi, rfl⟩, hv⟩
      cases s <;> cases hi <;> first | exact absurd rfl hv | decide
  refine ⟨key, ?_, ?_⟩
  · intro h s hn
    by_contra hv
    have hs : s ≠ .unknown := by rintro rfl; obtain ⟨_, h, _⟩ := hn; cases h
    rw [(key s hs).mpr ⟨hn, hv⟩] at h
    exact hs h
  · intro h
    by_contra hu
    obtain ⟨hn, hv⟩ := (key _ hu).mp rfl
    exact hv (h _ hn)

/-- The claim is false: no text gives the variance, not even its name. -/
theorem c168_variance : (∀ name, getStatistic name ≠ .variance) ∧ Named "variance".toList .variance ∧ getStatistic "variance".toList = .unknown := by
  refine ⟨fun name h => ?_, ⟨"Variance", rfl, by decide⟩, by decide⟩
  exact (((c168_names_partial name).1 _ (by decide)).mp h).2 rfl

/-- A name, a name with a capital letter and the identifier of one statistic. -/
theorem c168_case : Named "randomchoice".toList .randomChoice ∧ getStatistic "randomchoice".toList = .randomChoice ∧
    getStatistic "Mean".toList = .unknown ∧ getStatistic "RandomChoice".toList = .unknown :=
  ⟨⟨"RandomChoice", rfl, by decide⟩, by decide, by decide, by decide⟩

end Gridpp.Props
