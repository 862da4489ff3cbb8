import Verif.Props.SphereTables

/-! C105: tables that are too small for the order of the run. -/

namespace Verif.Props

open Verif.Model

/-- C105: if one of the three tables has not more rows than the order, no matrices can be made. -/
theorem c105_too_small {T : SphereTables} {s : SphereObject} (h : T.massSize ≤ s.M ∨ T.jSize ≤ s.M ∨ T.lSize ≤ s.M)
    (rL rR rLp rRp : ℝ) : s.makeAll T rL rR rLp rRp = none := by
  have hM : ∀ {size : ℕ} {d : ℕ → ℕ → ℤ} {f M : ℕ}, size ≤ M → ¬ usable size M d f := fun h hu => by
    have := hu.1
    omega
  unfold SphereObject.makeAll
  cases hl : s.makeL T rL rR with
  | none => rfl
  | some s1 =>
    have m1 : s1.M = s.M ∧ ¬ T.lSize ≤ s.M := by
      unfold SphereObject.makeL at hl
      split_ifs at hl with hu
      simp only [Option.some.injEq] at hl
      exact ⟨by rw [← hl], fun h => hM h hu⟩
    show (s1.makeG rL rR rLp rRp).bind _ = none
    cases hg : s1.makeG rL rR rLp rRp with
    | none => rfl
    | some s2 =>
      have m2 : s2.M = s1.M := by
        unfold SphereObject.makeG at hg
        obtain ⟨g, -, hg⟩ := Option.map_eq_some_iff.1 hg
        rw [← hg]
      show (s2.makeMass T rL rR).bind _ = none
      cases hm : s2.makeMass T rL rR with
      | none => rfl
      | some s3 =>
        have m3 : s3.M = s2.M ∧ ¬ T.massSize ≤ s2.M := by
          unfold SphereObject.makeMass at hm
          split_ifs at hm with hu
          simp only [Option.some.injEq] at hm
          exact ⟨by rw [← hm], fun h => hM h hu⟩
        show (s3.makeJ T rL rR).bind _ = none
        rw [m2, m1.1] at m3
        rcases h with h | h | h
        · exact absurd h m3.2
        · have : s3.makeJ T rL rR = none := by
            unfold SphereObject.makeJ
            rw [if_neg (hM (by rw [m3.1]; exact h))]
          rw [this]
          rfl
        · exact absurd h m1.2

/-- Tables of three rows cannot be used for order three. -/
example (T : SphereTables) (h : T.jSize = 3) : (SphereObject.init 3).makeAll T 0 1 0 0 = none :=
  c105_too_small (Or.inr (Or.inl (by rw [h]; rfl))) 0 1 0 0

end Verif.Props
