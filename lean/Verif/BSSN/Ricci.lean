import Verif.BSSN.Fields
import Verif.BSSN.Algebra

/-!
# The conformal Ricci tensor
-/
namespace Verif.BSSN
open Verif.RefMetric Verif.IndexedExp

/-- Raising an index. -/
theorem raise_lower {g U : A2} (hUg : ∀ i j, ∑ m, U i m * g m j = if i = j then 1 else 0) (T : A1) (n : Fin 3) :
    ∑ i, U n i * ∑ m, g i m * T m = T n := by
  have : ∑ i, U n i * ∑ m, g i m * T m = ∑ m, (∑ i, U n i * g i m) * T m := by
    simp only [Fin.sum_univ_three]; ring
  rw [this]
  simp only [hUg]
  simp

/-- The derivative of the inverse metric for another connection. -/
theorem cov_inverse {g U : A2} {dg : A3} {Γ : A3} (hU : ∀ i j, U i j = U j i)
    (hUg : ∀ i j, ∑ m, U i m * g m j = if i = j then 1 else 0) (a b j : Fin 3) (hg : ∀ i j, g i j = g j i) :
    -(∑ c, ∑ d, U a c * U b d * dg c d j) + ∑ m, (Γ a j m * U m b + Γ b j m * U a m) =
      -∑ c, ∑ d, U a c * U b d * covDD Γ g dg c d j := by
  have e : ∑ c, ∑ d, U a c * U b d * covDD Γ g dg c d j = ∑ c, ∑ d, U a c * U b d * dg c d j -
      ∑ c, U a c * (∑ m, (∑ d, U b d * g d m) * Γ m j c) - ∑ d, U b d * (∑ m, (∑ c, U a c * g c m) * Γ m j d) := by
    simp only [covDD, Fin.sum_univ_three, hg 1 0, hg 2 0, hg 2 1]
    ring
  rw [e]
  simp only [hUg]
  simp only [ite_mul, one_mul, zero_mul, Finset.sum_ite_eq, Finset.mem_univ, if_true]
  simp only [Fin.sum_univ_three, hU _ b]
  ring

theorem cov_contract (U : A2) (dU : A3) (Γ Δ : A3) (dΔ : A4) (k j : Fin 3) :
    ∑ a, ∑ b, (dU a b j * Δ k a b + U a b * dΔ k a b j) + ∑ m, Γ k j m * (∑ a, ∑ b, U a b * Δ m a b) =
      ∑ a, ∑ b, ((dU a b j + ∑ m, (Γ a j m * U m b + Γ b j m * U a m)) * Δ k a b + U a b * covUDD Γ Δ dΔ k a b j) := by
  simp only [covUDD, Fin.sum_univ_three]
  ring

/-! ### A metric and a flat connection -/

section Flat
variable {Ω : Dom} {g : T2} {H : T3}

/-- The difference of the two connections. -/
noncomputable def diffC (g : T2) (H : T3) : T3 := fun i j k y => christoffel g i j k y - H i j k y

/-- With the first index lowered. -/
noncomputable def diffL (g : T2) (H : T3) : T3 := fun i j k y => ∑ m, g i m y * diffC g H m j k y

/-- `D̂_k g_{ij}`. -/
noncomputable def covF (g : T2) (H : T3) : T3 := fun i j k y =>
  covDD (fun i j k => H i j k y) (fun i j => g i j y) (fun i j k => pd k (g i j) y) i j k

variable (hg : IsMetric Ω g) (hH : ∀ i j k, Sm Ω (H i j k)) (hHs : ∀ i j k, ∀ x ∈ Ω, H i j k x = H i k j x)
include hg hHs

theorem covF_eq {x : Vec} (hx : x ∈ Ω) (i j k : Fin 3) : covF g H i j k x = diffL g H i k j x + diffL g H j k i x := by
  simp only [covF, covDD, diffL, diffC, hg.compat hx i j k, hHs _ k i x hx, hHs _ k j x hx, hg.christoffel_symm hx _ k]
  simp only [Fin.sum_univ_three, hg.symm _ j x hx]
  ring

theorem diffC_symm {x : Vec} (hx : x ∈ Ω) (i j k : Fin 3) : diffC g H i j k x = diffC g H i k j x := by
  simp only [diffC, hg.christoffel_symm hx i j k, hHs i j k x hx]

omit hHs in
theorem diffC_raise {x : Vec} (hx : x ∈ Ω) (i j k : Fin 3) :
    diffC g H i j k x = ∑ n, inverse g i n x * diffL g H n j k x :=
  (raise_lower (fun a b => hg.inverse_mul hx a b) (fun m => diffC g H m j k x) i).symm

include hH
omit hHs

theorem diffC_smooth (i j k : Fin 3) : Sm Ω (diffC g H i j k) := (hg.christoffel_smooth i j k).sub (hH i j k)

theorem diffL_smooth (i j k : Fin 3) : Sm Ω (diffL g H i j k) :=
  Sm.sum fun m => (hg.smooth i m).mul (diffC_smooth hg hH m j k)

theorem pd_covF {x : Vec} (hx : x ∈ Ω) (i j k l : Fin 3) : pd l (covF g H i j k) x =
    dcovDD (fun i j k => H i j k x) (fun i j k l => pd l (H i j k) x) (fun i j => g i j x) (fun i j k => pd k (g i j) x)
      (fun i j k l => pd l (pd k (g i j)) x) i j k l := by
  show pd l (fun y => pd k (g i j) y - ∑ m, (H m k i y * g m j y + H m k j y * g i m y)) x = _
  rw [dpd_sub hx l ((hg.smooth i j).pd k) (Sm.sum fun m => ((hH m k i).mul (hg.smooth m j)).add ((hH m k j).mul (hg.smooth i m))),
    dpd_sum hx l fun m => ((hH m k i).mul (hg.smooth m j)).add ((hH m k j).mul (hg.smooth i m))]
  unfold dcovDD
  congr 1
  refine Finset.sum_congr rfl fun m _ => ?_
  rw [dpd_add hx l ((hH m k i).mul (hg.smooth m j)) ((hH m k j).mul (hg.smooth i m)), dpd_mul hx l (hH m k i) (hg.smooth m j),
    dpd_mul hx l (hH m k j) (hg.smooth i m)]
  ring

include hHs

/-- The Ricci tensor of a metric through a flat connection, when `Λ^i = g^{jk} (Γ^i_{jk} - Γ̂^i_{jk})`. -/
theorem ricci_flat (hflat : ∀ i j k l, ∀ x ∈ Ω, riemannOf H i j k l x = 0) {Λ : T1}
    (hΛ : ∀ i, ∀ y ∈ Ω, Λ i y = ∑ j, ∑ k, inverse g j k y * diffC g H i j k y) {x : Vec} (hx : x ∈ Ω) (i j : Fin 3) :
    ricci g i j x =
      ∑ k, ∑ l, -(1 / 2) * inverse g k l x * covDDD (fun i j k => H i j k x) (fun i j k => covF g H i j k x)
        (fun i j k l => pd l (covF g H i j k) x) i j l k +
      ∑ k, 1 / 2 * (g k i x * (pd j (Λ k) x + ∑ m, H k m j x * Λ m x) + g k j x * (pd i (Λ k) x + ∑ m, H k m i x * Λ m x)) +
      ∑ k, 1 / 2 * (∑ a, ∑ b, inverse g a b x * diffC g H k a b x) * (diffL g H i j k x + diffL g H j i k x) +
      ∑ k, ∑ l, ∑ m, inverse g k l x * (diffC g H m k i x * diffL g H j m l x + diffC g H m k j x * diffL g H i m l x +
        diffC g H m i k x * diffL g H m j l x) := by
  -- values at `x`
  set G : A3 := fun i j k => H i j k x with hG
  set dG : A4 := fun i j k l => pd l (H i j k) x with hdG
  set U : A2 := fun i j => inverse g i j x with hU
  set m : A2 := fun i j => g i j x with hm
  set dm : A3 := fun i j k => pd k (g i j) x with hdm
  set Δ : A3 := fun i j k => diffC g H i j k x with hΔ
  set dΔ : A4 := fun i j k l => pd l (diffC g H i j k) x with hdΔ
  set L : A3 := fun i j k => diffL g H i j k x with hL
  set dL : A4 := fun i j k l => pd l (diffL g H i j k) x with hdL
  set M : A4 := covDDD G L dL with hMd
  set N : A4 := covUDD G Δ dΔ with hNd
  set D : A3 := covDD G m dm with hD
  have eU : ∀ a b, inverse g a b x = U a b := fun _ _ => rfl
  have eΔ : ∀ a b c, diffC g H a b c x = Δ a b c := fun _ _ _ => rfl
  have eL : ∀ a b c, diffL g H a b c x = L a b c := fun _ _ _ => rfl
  have em : ∀ a b, g a b x = m a b := fun _ _ => rfl
  have Usym : ∀ a b, U a b = U b a := hg.inverse_symm hx
  have msym : ∀ a b, m a b = m b a := fun a b => hg.symm a b x hx
  have Gsym : ∀ a b c, G a b c = G a c b := fun a b c => hHs a b c x hx
  have Δsym : ∀ a b c, Δ a b c = Δ a c b := diffC_symm hg hHs hx
  have UM : ∀ a b, ∑ c, U a c * m c b = if a = b then 1 else 0 := hg.inverse_mul hx
  have Lsym : ∀ a b c, L a b c = L a c b := fun a b c => by
    show ∑ n, m a n * Δ n b c = ∑ n, m a n * Δ n c b
    simp only [Δsym _ b c]
  have Ldef : ∀ a b c, L a b c = ∑ n, m a n * Δ n b c := fun _ _ _ => rfl
  have Δdef : ∀ a b c, Δ a b c = ∑ n, U a n * L n b c := diffC_raise hg hx
  have dLdef : ∀ a b c l, dL a b c l = ∑ n, (dm a n l * Δ n b c + m a n * dΔ n b c l) := fun a b c l =>
    dpd_dot hx l (fun n => hg.smooth a n) (fun n => diffC_smooth hg hH n b c)
  have dLsym : ∀ a b c l, dL a b c l = dL a c b l := fun a b c l =>
    pd_congr_on (fun y hy => by simp only [diffL, diffC_symm hg hHs hy _ b c]) hx l
  have Msym : ∀ a b c l, M a b c l = M a c b l := fun a b c l => by
    simp only [hMd, covDDD, dLsym a b c l, Fin.sum_univ_three, Lsym _ b c, Lsym _ _ c, Lsym _ b]
    ring
  -- `D̂_k g_{ij}` and its derivative through `L`
  have De : ∀ a b c, D a b c = L a c b + L b c a := covF_eq hg hHs hx
  have dDe : ∀ a b c l, pd l (covF g H a b c) x = dL a c b l + dL b c a l := fun a b c l => by
    rw [pd_congr_on (g := fun y => diffL g H a c b y + diffL g H b c a y) (fun y hy => covF_eq hg hHs hy a b c) hx,
      dpd_add hx l (diffL_smooth hg hH a c b) (diffL_smooth hg hH b c a)]
  have Se : ∀ a b c l, covDDD G (fun i j k => covF g H i j k x) (fun i j k l => pd l (covF g H i j k) x) a b c l =
      M a c b l + M b c a l := fun a b c l => by
    have e1 : (fun i j k => covF g H i j k x) = fun i j k => L i k j + L j k i := by
      funext a b c; exact De a b c
    have e2 : (fun i j k l => pd l (covF g H i j k) x) = fun i j k l => dL i k j l + dL j k i l := by
      funext a b c l; exact dDe a b c l
    rw [e1, e2]
    simp only [hMd, covDDD, Fin.sum_univ_three]
    ring
  have hS : ∀ a b c l, M a c b l + M b c a l = M a l b c + M b l a c := fun a b c l => by
    rw [← Se, ← Se]
    have e1 : (fun i j k => covF g H i j k x) = covDD G m dm := rfl
    have e2 : (fun i j k l => pd l (covF g H i j k) x) = dcovDD G dG m dm (fun i j k l => pd l (pd k (g i j)) x) := by
      funext a b c l; exact pd_covF hg hH hx a b c l
    rw [e1, e2]
    exact cov_comm G dG m dm _ Gsym (fun i j k l => hflat i j k l x hx)
      (fun i j k l => dpd_comm hx l (hg.smooth i j) k) a b c l
  -- `N` through `M`
  have MN : ∀ a b c l, M a b c l = ∑ n, (D a n l * Δ n b c + m a n * N n b c l) := fun a b c l => by
    have := covDDD_lower G Δ dΔ m dm a b c l
    rw [← this]
    have e1 : L = fun i j k => ∑ n, m i n * Δ n j k := by funext a b c; exact Ldef a b c
    have e2 : dL = fun i j k l => ∑ n, (dm i n l * Δ n j k + m i n * dΔ n j k l) := by funext a b c l; exact dLdef a b c l
    rw [hMd, ← e1, ← e2]
  have mN : ∀ a b c l, ∑ n, m a n * N n b c l = M a b c l - ∑ n, D a n l * Δ n b c := fun a b c l => by
    rw [MN, Finset.sum_add_distrib]; ring
  have Ne : ∀ a b c l, N a b c l = ∑ e, U a e * (M e b c l - ∑ n, D e n l * Δ n b c) := fun a b c l => by
    simp only [← mN]
    exact (raise_lower UM (fun n => N n b c l) a).symm
  -- the left-hand side
  have hlhs : ricci g i j x = ∑ k, ∑ n, U k n * (M n j i k - M n k i j) -
      ∑ k, ∑ n, ∑ p, U k n * (L p k n * (∑ a, U p a * L a i j) - L p j n * (∑ a, U p a * L a i k)) := by
    have e0 : ricci g i j x = ric (fun i j k => G i j k + Δ i j k) (fun i j k l => dG i j k l + dΔ i j k l) i j := by
      have e1 : ∀ a b c, christoffel g a b c x = G a b c + Δ a b c := fun a b c => by simp [hG, hΔ, diffC]
      have e2 : ∀ a b c l, pd l (christoffel g a b c) x = dG a b c l + dΔ a b c l := fun a b c l => by
        rw [pd_congr_on (g := fun y => H a b c y + diffC g H a b c y) (fun y _ => by simp [diffC]) hx,
          dpd_add hx l (hH a b c) (diffC_smooth hg hH a b c)]
      simp only [ricci, ricciOf, riemannOf, ric, e1, e2]
    have e3 : ric G dG i j = 0 := Finset.sum_eq_zero fun k _ => hflat k i k j x hx
    rw [e0, ric_add G Δ dG dΔ Gsym, e3]
    have e4 : ∀ a b c l, covUDD G Δ dΔ a b c l = ∑ e, U a e * (M e b c l - ∑ n, (L e l n + L n l e) * Δ n b c) := fun a b c l => by
      rw [← hNd, Ne]
      simp only [De]
    simp only [e4, ← Δdef]
    have e5 : ∑ k, ∑ n, (Δ k k n * Δ n j i - Δ k j n * Δ n k i) =
        ∑ k, ∑ n, ((∑ e, U k e * L e k n) * Δ n j i - (∑ e, U k e * L e j n) * Δ n k i) := by simp only [← Δdef]
    rw [e5]
    simp only [Fin.sum_univ_three, Δsym _ j i, Δsym _ 0 i, Δsym _ 1 i, Δsym _ 2 i, Lsym _ 1 0, Lsym _ 2 0, Lsym _ 2 1, Usym 1 0, Usym 2 0, Usym 2 1]
    ring
  -- the derivative of `Λ`
  have hQ : ∀ a b, ∑ k, m k a * (pd b (Λ k) x + ∑ n, H k n b x * Λ n x) =
      -∑ c, ∑ d, ∑ e, ∑ f, U c e * U d f * (L e b f + L f b e) * L a c d +
      ∑ c, ∑ d, U c d * (M a c d b - ∑ n, (L a b n + L n b a) * Δ n c d) := fun a b => by
    have e1 : ∀ k, pd b (Λ k) x = ∑ c, ∑ d, (pd b (inverse g c d) x * Δ k c d + U c d * dΔ k c d b) := fun k => by
      rw [pd_congr_on (fun y hy => hΛ k y hy) hx, dpd_sum hx b fun c => Sm.sum fun d =>
        (hg.inverse_smooth c d).mul (diffC_smooth hg hH k c d)]
      exact Finset.sum_congr rfl fun c _ => dpd_dot hx b (fun d => hg.inverse_smooth c d) (fun d => diffC_smooth hg hH k c d)
    have e2 : ∀ k, ∑ n, H k n b x * Λ n x = ∑ n, G k b n * ∑ c, ∑ d, U c d * Δ n c d := fun k =>
      Finset.sum_congr rfl fun n _ => by rw [hΛ n x hx]; exact congrArg (· * _) (Gsym k n b)
    have e3 : ∀ k, pd b (Λ k) x + ∑ n, H k n b x * Λ n x =
        ∑ c, ∑ d, ((-∑ e, ∑ f, U c e * U d f * (L e b f + L f b e)) * Δ k c d + U c d * N k c d b) := fun k => by
      rw [e1, e2, cov_contract U (fun a b l => pd l (inverse g a b) x) G Δ dΔ k b]
      refine Finset.sum_congr rfl fun c _ => Finset.sum_congr rfl fun d _ => ?_
      rw [hg.pd_inverse hx]
      refine congrArg (fun t => t * Δ k c d + U c d * N k c d b) ?_
      refine (cov_inverse (Γ := G) (dg := dm) Usym UM c d b msym).trans ?_
      simp only [← hD, De]
    simp only [e3]
    have e4 : ∑ k, m k a * ∑ c, ∑ d, ((-∑ e, ∑ f, U c e * U d f * (L e b f + L f b e)) * Δ k c d + U c d * N k c d b) =
        ∑ c, ∑ d, ((-∑ e, ∑ f, U c e * U d f * (L e b f + L f b e)) * (∑ k, m a k * Δ k c d) + U c d * ∑ k, m a k * N k c d b) := by
      simp only [msym _ a, Fin.sum_univ_three]
      ring
    rw [e4]
    simp only [mN, ← Ldef, De, Finset.sum_add_distrib, ← Finset.sum_neg_distrib, Finset.sum_mul, neg_mul]
  have hQ2 : ∑ k, 1 / 2 * (g k i x * (pd j (Λ k) x + ∑ m, H k m j x * Λ m x) + g k j x * (pd i (Λ k) x + ∑ m, H k m i x * Λ m x)) =
      1 / 2 * (∑ k, m k i * (pd j (Λ k) x + ∑ n, H k n j x * Λ n x) + ∑ k, m k j * (pd i (Λ k) x + ∑ n, H k n i x * Λ n x)) := by
    simp only [← Finset.mul_sum, Finset.sum_add_distrib, hm]
  rw [hQ2, hQ i j, hQ j i, hlhs]
  simp only [eU, eΔ, eL, Se]
  simp only [Δdef]
  exact ricci_core U L M Usym Lsym Msym hS i j

end Flat

section
variable {Ω : Dom} {s : Vec → Vec} {F : Fields}

theorem Gammahat_eq (x : Vec) (i j k : Fin 3) :
    RefMetric.GammahatUDD s i j k x = christoffel (ghatF s) i j k x := by
  unfold RefMetric.GammahatUDD christoffel
  refine Finset.sum_congr rfl fun m _ => ?_
  have : ghatUU s i m x = inverse (ghatF s) i m x :=
    inv3_eq (a := fun a b => RefMetric.ghatDD s a b x) (fun a b => by rw [ghatDD_symm]) i m
  rw [this]
  simp only [ghatDDdD]
  congr 1
  show pd k (RefMetric.ghatDD s m j) x + pd j (RefMetric.ghatDD s m k) x - pd m (RefMetric.ghatDD s j k) x =
    pd j (RefMetric.ghatDD s m k) x + pd k (RefMetric.ghatDD s m j) x - pd m (RefMetric.ghatDD s j k) x
  ring

variable (hs : IsRfm Ω s) (hF : F.Smooth Ω)
include hs

theorem Gammahat_smooth (i j k : Fin 3) : Sm Ω (RefMetric.GammahatUDD s i j k) :=
  (hs.isMetric.christoffel_smooth i j k).congr fun x _ => Gammahat_eq x i j k

theorem Gammahat_symm {x : Vec} (hx : x ∈ Ω) (i j k : Fin 3) :
    RefMetric.GammahatUDD s i j k x = RefMetric.GammahatUDD s i k j x := by
  rw [Gammahat_eq, Gammahat_eq, hs.isMetric.christoffel_symm hx]

include hF

/-- `D̂_l γ̄_{ij}`: the code differentiates `γ̄ - γ̂` instead. -/
theorem dHatD_eq {x : Vec} (hx : x ∈ Ω) (i j l : Fin 3) :
    gammabarDD_dHatD (rfmAt s x) (gfsAt F x) i j l =
      covDD (fun i j k => RefMetric.GammahatUDD s i j k x) (fun i j => gammabarF s F i j x)
        (fun i j k => pd k (gammabarF s F i j) x) i j l := by
  have hc := hs.isMetric.compat hx i j l
  simp only [covDD, pd_gammabarF hs hF hx]
  have hc' : RefMetric.ghatDDdD s i j l x = ∑ m, RefMetric.ghatDD s j m x * RefMetric.GammahatUDD s m i l x +
      ∑ m, RefMetric.ghatDD s i m x * RefMetric.GammahatUDD s m j l x := by
    simp only [Gammahat_eq]
    exact hc
  have e : ∀ a b, gammabarF s F a b x = epsDD (rfmAt s x) (gfsAt F x) a b + RefMetric.ghatDD s a b x := fun a b => rfl
  simp only [e, gammabarDD_dHatD, gammabarDD_dD, rfmAt, hc']
  simp only [epsDD_dD, Gammahat_symm hs hx _ l i, Gammahat_symm hs hx _ l j, ghatDD_symm s j]
  simp only [Fin.sum_univ_three]
  ring

/-- `∂_k D̂_l γ̄_{ij}`. -/
theorem dHatD_dD_eq {x : Vec} (hx : x ∈ Ω) (i j l k : Fin 3) :
    gammabarDD_dHatD_dD (rfmAt s x) (gfsAt F x) i j l k =
      pd k (fun y => gammabarDD_dHatD (rfmAt s y) (gfsAt F y) i j l) x := by
  have he : ∀ a b, Sm Ω fun y => epsDD (rfmAt s y) (gfsAt F y) a b := fun a b => (hF.hDD a b).mul (hs.ReDD a b)
  have hep : ∀ a b c, ∀ y ∈ Ω, pd c (fun y => epsDD (rfmAt s y) (gfsAt F y) a b) y = epsDD_dD (rfmAt s y) (gfsAt F y) a b c :=
    fun a b c y hy => dpd_mul hy c (hF.hDD a b) (hs.ReDD a b)
  have hed : ∀ a b c, Sm Ω fun y => epsDD_dD (rfmAt s y) (gfsAt F y) a b c := fun a b c =>
    ((he a b).pd c).congr fun y hy => (hep a b c y hy).symm
  have hepp : pd k (fun y => epsDD_dD (rfmAt s y) (gfsAt F y) i j l) x = epsDD_dDD (rfmAt s x) (gfsAt F x) i j l k := by
    have d1 := (hF.hDD i j).pd l
    have d2 : Sm Ω (RefMetric.ReDDdD s i j l) := (hs.ReDD i j).pd l
    show pd k (fun y => pd l (F.hDD i j) y * RefMetric.ReDD s i j y + F.hDD i j y * RefMetric.ReDDdD s i j l y) x = _
    rw [dpd_add hx k (d1.mul (hs.ReDD i j)) ((hF.hDD i j).mul d2), dpd_mul hx k d1 (hs.ReDD i j), dpd_mul hx k (hF.hDD i j) d2]
    simp only [epsDD_dDD, rfmAt, gfsAt, ReDDdD, ReDDdDD]
    ring
  have hG := Gammahat_smooth hs
  show _ = pd k (fun y => epsDD_dD (rfmAt s y) (gfsAt F y) i j l + ∑ m, (-RefMetric.GammahatUDD s m i l y *
    epsDD (rfmAt s y) (gfsAt F y) m j - RefMetric.GammahatUDD s m j l y * epsDD (rfmAt s y) (gfsAt F y) i m)) x
  rw [dpd_add hx k (hed i j l) (Sm.sum fun m => ((hG m i l).neg.mul (he m j)).sub ((hG m j l).mul (he i m))), hepp,
    dpd_sum hx k fun m => ((hG m i l).neg.mul (he m j)).sub ((hG m j l).mul (he i m))]
  unfold gammabarDD_dHatD_dD
  congr 1
  refine Finset.sum_congr rfl fun m _ => ?_
  rw [dpd_sub hx k ((hG m i l).neg.mul (he m j)) ((hG m j l).mul (he i m)), dpd_mul hx k (hG m i l).neg (he m j),
    dpd_mul hx k (hG m j l) (he i m), hep m j k x hx, hep i m k x hx, dpd_neg hx k (hG m i l)]
  simp only [rfmAt, GammahatUDDdD]
  ring

theorem gammabarF_metric (hdet : ∀ y ∈ Ω, (Matrix.of fun a b => gammabarF s F a b y).det ≠ 0) : IsMetric Ω (gammabarF s F) where
  smooth := gammabarF_smooth hs hF
  symm i j x _ := by rw [gammabarF_symm hs hF i j]
  det := hdet

theorem RbarDD_eq (hdet : ∀ y ∈ Ω, (Matrix.of fun a b => gammabarF s F a b y).det ≠ 0)
    (hflat : ∀ i j k l, ∀ y ∈ Ω, riemannOf (RefMetric.GammahatUDD s) i j k l y = 0)
    (hΛ : ∀ i, ∀ y ∈ Ω, LambdabarF s F i y = ∑ j, ∑ k, inverse (gammabarF s F) j k y *
      (christoffel (gammabarF s F) i j k y - RefMetric.GammahatUDD s i j k y)) {x : Vec} (hx : x ∈ Ω) (i j : Fin 3) :
    RbarDD (rfmAt s x) (gfsAt F x) i j = ricci (gammabarF s F) i j x := by
  have hg := gammabarF_metric hs hF hdet
  rw [ricci_flat hg (Gammahat_smooth hs) (fun i j k x hx => Gammahat_symm hs hx i j k) hflat hΛ hx i j]
  have hU := fun a b => gammabarUU_eq hs hF x a b
  have hC : ∀ a b c, DGammaUDD (rfmAt s x) (gfsAt F x) a b c = diffC (gammabarF s F) (RefMetric.GammahatUDD s) a b c x :=
    fun a b c => by
      unfold DGammaUDD diffC
      rw [GammabarUDD_eq hs hF hx]
      rfl
  have hL : ∀ a b c, DGammaDDD (rfmAt s x) (gfsAt F x) a b c = diffL (gammabarF s F) (RefMetric.GammahatUDD s) a b c x :=
    fun a b c => by
      unfold DGammaDDD diffL
      exact Finset.sum_congr rfl fun m _ => by rw [hC]; rfl
  have hCU : ∀ a, DGammaU (rfmAt s x) (gfsAt F x) a = ∑ b, ∑ c, inverse (gammabarF s F) b c x *
      diffC (gammabarF s F) (RefMetric.GammahatUDD s) a b c x := fun a => by
    unfold DGammaU
    simp only [hU, hC]
  have hD1 : ∀ y ∈ Ω, ∀ a b c, gammabarDD_dHatD (rfmAt s y) (gfsAt F y) a b c =
      covF (gammabarF s F) (RefMetric.GammahatUDD s) a b c y := fun y hy a b c => dHatD_eq hs hF hy a b c
  have hD2 : ∀ a b c l, gammabarDD_dHatDD (rfmAt s x) (gfsAt F x) a b c l =
      covDDD (fun i j k => RefMetric.GammahatUDD s i j k x) (fun i j k => covF (gammabarF s F) (RefMetric.GammahatUDD s) i j k x)
        (fun i j k l => pd l (covF (gammabarF s F) (RefMetric.GammahatUDD s) i j k) x) a b c l := fun a b c l => by
    unfold gammabarDD_dHatDD covDDD
    rw [dHatD_dD_eq hs hF hx, pd_congr_on (fun y hy => hD1 y hy a b c) hx]
    have hr : ∀ i j k, (rfmAt s x).GammahatUDD i j k = RefMetric.GammahatUDD s i j k x := fun _ _ _ => rfl
    simp only [hD1 x hx, hr]
    simp only [Gammahat_symm hs hx _ l, Fin.sum_univ_three]
    ring
  have hΛd : ∀ k l, LambarU_dHatD (rfmAt s x) (gfsAt F x) k l =
      pd l (LambdabarF s F k) x + ∑ m, RefMetric.GammahatUDD s k m l x * LambdabarF s F m x := fun k l => by
    unfold LambarU_dHatD
    rw [pd_LambdabarF hs hF hx]
    simp only [rfmAt, gfsAt, LambdabarF, LambdabarU]
    rw [add_comm (F.lambdaU k x * _)]
    congr 1
    exact Finset.sum_congr rfl fun m _ => mul_assoc _ _ _
  unfold RbarDD
  simp only [hU, hC, hL, hCU, hD2, hΛd]
  rfl

end

end Verif.BSSN
