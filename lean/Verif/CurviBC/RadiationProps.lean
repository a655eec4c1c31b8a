import Verif.CurviBC.Radiation
import Verif.CurviBC.Claims
import Verif.FD.CoeffsProps
import Verif.IndexedExp.InvertersProps
import Mathlib.Analysis.Calculus.Deriv.Inv
import Mathlib.Analysis.Calculus.Deriv.Comp

/-! # Lemmas on the radiation boundary conditions -/
namespace Verif.CurviBC
open Verif.RefMetric Verif.FD Verif.IndexedExp Polynomial

theorem mem_caseOffsets {order : ℕ} {o : ℤ} : o ∈ caseOffsets order ↔ |o| ≤ ((order / 2 : ℕ) : ℤ) := by
  unfold caseOffsets
  rw [List.mem_flatMap]
  constructor
  · rintro ⟨k, hk, h⟩
    have := List.mem_range.1 hk
    rw [abs_le]
    split at h <;> simp only [List.mem_cons, List.not_mem_nil, or_false] at h
    · rcases h with rfl | rfl <;> omega
    · subst h; omega
  · intro h
    refine ⟨o.natAbs, List.mem_range.2 ?_, ?_⟩
    · rw [Int.abs_eq_natAbs] at h; omega
    · split
      · simp only [List.mem_cons, List.not_mem_nil, or_false]; omega
      · simp only [List.mem_cons, List.not_mem_nil, or_false]; omega

theorem caseTerms_range {order : ℕ} {o : ℤ} {t : ℤ × ℚ} (h : t ∈ caseTerms order o) :
    o - ((order / 2 : ℕ) : ℤ) ≤ t.1 ∧ t.1 ≤ o + order - ((order / 2 : ℕ) : ℤ) := by
  unfold caseTerms arbCoeffs at h
  obtain ⟨i, hi, rfl⟩ := List.mem_map.1 (List.mem_filter.1 h).1
  have := List.mem_range.1 hi
  simp only
  omega

theorem sum_filter_ne_zero {l : List (ℤ × ℚ)} (F : ℤ → ℝ) :
    ((l.filter fun t => t.2 ≠ 0).map fun t => ((t.2 : ℚ) : ℝ) * F t.1).sum = (l.map fun t => ((t.2 : ℚ) : ℝ) * F t.1).sum := by
  induction l with
  | nil => rfl
  | cons a l ih =>
    by_cases h : a.2 = 0
    · rw [List.filter_cons_of_neg (by simp [h]), List.map_cons, List.sum_cons, ih, h]; simp
    · rw [List.filter_cons_of_pos (by simp [h]), List.map_cons, List.map_cons, List.sum_cons, List.sum_cons, ih]

/-- The finite difference of a polynomial of degree up to the order, if the order is even. -/
theorem fd1_exact (nan : ℝ) {r : ℕ} (hr : 0 < r) {o : ℤ} (ho : |o| ≤ r) {h : ℝ} (hh : h ≠ 0) (f : Idx → ℝ) (p : Idx)
    (d : Fin 3) (P : ℝ[X]) (hP : P.natDegree ≤ 2 * r) (x : ℝ)
    (hf : ∀ k : ℤ, o - r ≤ k → k ≤ o + r → f (along p d k) = P.eval (x + k * h)) :
    fd1 nan (2 * r) (1 / h) f p d o = (derivative P).eval x := by
  have e2 : 2 * r / 2 = r := by omega
  unfold fd1
  rw [if_pos (mem_caseOffsets.2 (by rw [e2]; exact ho))]
  unfold caseTerms
  rw [sum_filter_ne_zero (fun k => f (along p d k))]
  unfold arbCoeffs
  rw [List.map_map]
  have hs : ((List.range (2 * r + 1)).map ((fun t : ℤ × ℚ => ((t.2 : ℚ) : ℝ) * f (along p d t.1)) ∘ fun i : ℕ =>
      ((i : ℤ) - ((2 * r / 2 : ℕ) : ℤ) + o,
        if h : i < 2 * r + 1 ∧ 1 < 2 * r + 1 then minv (2 * r + 1) o ⟨i, h.1⟩ ⟨1, h.2⟩ else 0))).sum =
      ∑ j : Fin (2 * r + 1), (((minv (2 * r + 1) o j ⟨1, by omega⟩ : ℚ)) : ℝ) *
        P.eval (x + ((node (2 * r + 1) o j.val : ℚ) : ℝ) * h) := by
    rw [sum_range_list]
    refine Finset.sum_congr rfl fun j _ => ?_
    have hj := j.isLt
    simp only [Function.comp_apply]
    rw [dif_pos ⟨hj, by omega⟩, hf _ (by rw [e2]; omega) (by rw [e2]; omega)]
    congr 3
    unfold node
    push_cast [e2]
    ring_nf
  rw [hs]
  have := exact_poly (2 * r + 1) o ⟨1, by omega⟩ P (by omega) x h
  simp only [Nat.factorial_one, Nat.cast_one, one_mul, pow_one, Function.iterate_one] at this
  rw [this]
  field_simp

theorem xx_along {G : Grid} {c : Coords} {d : Fin 3} (j k : ℤ) : xx G c d (j + k) = xx G c d j + k * dxx G c d := by
  unfold xx
  push_cast
  ring

theorem xxAt_along {G : Grid} {c : Coords} {p : Idx} {d : Fin 3} (k : ℤ) :
    xxAt G c (along p d k) = Function.update (xxAt G c p) d (xxAt G c p d + k * dxx G c d) := by
  funext e
  unfold xxAt along
  by_cases h : e = d
  · subst h
    rw [Function.update_self, Function.update_self, xx_along]
  · rw [Function.update_of_ne h, Function.update_of_ne h]

/-- The loops over outer faces, followed by the inner boundary conditions, leave values that depend only on those in the
interior. -/
theorem faces_determined {G : Grid} {m : Maps} {K : ℤ} {lo hi : Idx} (ob : OwnBox G m K lo hi) (hm : PartnersSettled G m)
    {bc : BcStruct} (h : setUp G m = some bc) {nGfs : ℕ} {types : ℕ → Fin 10} {ks : List ℤ}
    (hks : ∀ k ∈ ks, 1 ≤ k ∧ k ≤ K) {val : ℕ → OuterPt → List ℝ → ℝ} {s₁ s₁' s₂ s₂' : Mem}
    (r₁ : Runs (((List.range G.g).flatMap fun gz => [0, 1, 2].map fun d => faceAsgs G bc nGfs ks val gz d) ++
      [innerAsgs G bc nGfs types]) s₁ s₁')
    (r₂ : Runs (((List.range G.g).flatMap fun gz => [0, 1, 2].map fun d => faceAsgs G bc nGfs ks val gz d) ++
      [innerAsgs G bc nGfs types]) s₂ s₂') {gf : ℕ}
    (hgf : gf < nGfs) (hs : ∀ p, G.Has p → ¬ G.Ghost p → gfAt G s₁ gf p = gfAt G s₂ gf p) :
    ∀ p, G.Has p → gfAt G s₁' gf p = gfAt G s₂' gf p := by
  obtain ⟨t₁, a₁, b₁⟩ := runs_append r₁
  obtain ⟨t₂, a₂, b₂⟩ := runs_append r₂
  obtain ⟨o₁, k₁⟩ := faces_result ob h hks a₁
  obtain ⟨o₂, k₂⟩ := faces_result ob h hks a₂
  have settled : ∀ p, Settled G m p → t₁ (G.pt gf (G.at p)) = t₂ (G.pt gf (G.at p)) := by
    refine layers_induct ob _ (fun p hp hg => ?_) fun gz hz d u p hf ho ih => ?_
    · rw [k₁ p gf hp (.inr (.inl hg)), k₂ p gf hp (.inr (.inl hg))]
      exact hs p hp hg
    · have hb := face_outer h hz hf ho
      have e₁ := o₁ gz hz d _ hb gf hgf
      have e₂ := o₂ gz hz d _ hb gf hgf
      refine e₁.trans (Eq.trans ?_ e₂.symm)
      congr 1
      refine List.map_congr_left fun k hk => ?_
      have : OuterPt.step ⟨p, facex ((d : ℕ) * 2 + if u then 1 else 0)⟩ k = shift p d (if u then -k else k) := by
        funext e
        rw [step_eq rfl]
        unfold shift
        by_cases c : e = d
        · subst c
          rw [if_pos rfl, Function.update_self]
          cases u <;> simp <;> ring
        · rw [if_neg c, Function.update_of_ne c]
      rw [this]
      exact ih k (hks k hk).1 (hks k hk).2
  obtain ⟨i₁, j₁⟩ := inner_result hm h (runs_single b₁)
  obtain ⟨i₂, j₂⟩ := inner_result hm h (runs_single b₂)
  intro p hp
  by_cases c : Settled G m p
  · unfold gfAt
    rw [j₁ p gf hp (.inr c), j₂ p gf hp (.inr c), settled p c]
  · have hg : G.Ghost p := by
      by_contra hg
      exact c ⟨hp, fun k => absurd k hg⟩
    obtain ⟨-, -, htot, -, -, -⟩ := setUp_spec h
    obtain ⟨q, hq⟩ := htot p hg
    have hne : q ≠ p := by rintro rfl; exact c ⟨hp, fun _ => hq⟩
    obtain ⟨e, he, hd⟩ := List.mem_map.1 ((inner_iff h hp).2 ⟨hg, by rw [hq]; intro k; exact hne (Option.some.inj k)⟩)
    obtain ⟨p', q', par, hg', hq', -, hpar, rfl⟩ := (C64_inner h e).1 he
    have := Grid.at_inj hg'.1 hp hd
    subst this
    rw [hq] at hq'; cases hq'
    unfold gfAt
    rw [i₁ p' q par hg hq hne hpar gf hgf, i₂ p' q par hg hq hne hpar gf hgf, settled q (hm p' q hg hq)]

end Verif.CurviBC
