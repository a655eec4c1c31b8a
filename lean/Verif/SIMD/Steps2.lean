import Verif.SIMD.Steps

/-!
# Steps 4 and 5 keep the value (helper lemmas)
-/
namespace Verif.SIMD
open Verif.Py Verif.Sympy Verif.Sympy.Expr

section
variable {I : Interp ℝ} {C : Set (Str → ℝ)}

/-- A rewriting that keeps values and numbers of arguments. -/
def Keeps (I : Interp ℝ) (C : Set (Str → ℝ)) (e e' : Expr) : Prop :=
  AllN I C okA e → AllN I C okA e' ∧ ∀ ρ ∈ C, eval I ρ e' = eval I ρ e

theorem Keeps.rfl {e : Expr} : Keeps I C e e := fun h => ⟨h, fun _ _ => Eq.refl _⟩

theorem Keeps.trans {a b c : Expr} (h : Keeps I C a b) (h' : Keeps I C b c) : Keeps I C a c :=
  fun ha => ⟨(h' (h ha).1).1, fun ρ hρ => ((h' (h ha).1).2 ρ hρ).trans ((h ha).2 ρ hρ)⟩

theorem topDown_keeps {g : Table → Expr → Expr} {J : Table → Prop}
    (hg : ∀ d e, J d → Keeps I C e (g d e)) :
    ∀ fuel d e e' d', topDown (pureStep g) fuel d e = some (e', d') → J d → AllN I C okA e →
      J d' ∧ V I C e' = V I C e ∧ AllN I C okA e' :=
  topDown_pure (fun d e hd he => funext fun ρ => (hg d e hd he).2 ρ.1 ρ.2) (fun d e hd he => (hg d e hd he).1)

variable (hI : Sem I) {d : Table} (hd : JC C d) (e : Expr)
include hI hd

theorem step4_keeps : Keeps I C e (step4 d e) := by
  have key : ∀ p q y, isVal d 1 p = true → Keeps I C (fn2 nMul (fn2 nDiv p q) y) (fn2 nDiv y q) := by
    intro p q y hp h
    obtain ⟨h1, h2⟩ := allN_fn2_args h
    obtain ⟨h3, h4⟩ := allN_fn2_args h1
    refine ⟨allN_fn2 _ _ _ (okA_2 ar_div _ _) h2 h4, fun ρ hρ => ?_⟩
    rw [ev_div hI, ev_mul hI, ev_div hI, isVal_eval (hd ρ hρ) hp]
    push_cast; ring
  have key' : ∀ p q x, isVal d 1 p = true → Keeps I C (fn2 nMul x (fn2 nDiv p q)) (fn2 nDiv x q) := by
    intro p q y hp h
    obtain ⟨h1, h2⟩ := allN_fn2_args h
    obtain ⟨h3, h4⟩ := allN_fn2_args h2
    refine ⟨allN_fn2 _ _ _ (okA_2 ar_div _ _) h1 h4, fun ρ hρ => ?_⟩
    rw [ev_div hI, ev_mul hI, ev_div hI, isVal_eval (hd ρ hρ) hp]
    push_cast; ring
  unfold step4
  split
  · exact Keeps.rfl
  · next x y h =>
    obtain rfl := as2_eq h
    split
    · next p q hx =>
      split
      · next hp => obtain rfl := as2_eq hx; exact key p q y hp
      · split
        · next p' q' hy =>
          split
          · next hp => obtain rfl := as2_eq hy; exact key' p' q' x hp
          · exact Keeps.rfl
        · exact Keeps.rfl
    · split
      · next p' q' hy =>
        split
        · next hp => obtain rfl := as2_eq hy; exact key' p' q' x hp
        · exact Keeps.rfl
      · exact Keeps.rfl

omit hI hd in
theorem asAddMulMul_eq {e b c p q : Expr} (h : asAddMulMul e = some (b, c, p, q)) :
    e = fn2 nAdd (fn2 nMul b c) (fn2 nMul p q) := by
  unfold asAddMulMul at h
  split at h
  · cases h
  · next x y he =>
    split at h
    · next hx hy =>
      simp only [Option.some.injEq, Prod.mk.injEq] at h
      obtain ⟨rfl, rfl, rfl, rfl⟩ := h
      rw [as2_eq he, as2_eq hx, as2_eq hy]
    · cases h

omit hd in
theorem step5a_keeps : Keeps I C e (step5a d e) := by
  unfold step5a
  split
  · exact Keeps.rfl
  · next x y h =>
    obtain rfl := as2_eq h
    split
    · next b c p q hy =>
      obtain rfl := asAddMulMul_eq hy
      intro h
      obtain ⟨h1, h2⟩ := allN_fn2_args h
      obtain ⟨h3, h4⟩ := allN_fn2_args h2
      obtain ⟨h5, h6⟩ := allN_fn2_args h3
      obtain ⟨h7, h8⟩ := allN_fn2_args h4
      refine ⟨allN_fn3 _ _ _ _ (okA_3 ar_fma _ _ _) h5 h6
        (allN_fn3 _ _ _ _ (okA_3 ar_fma _ _ _) h7 h8 h1), fun ρ _ => ?_⟩
      simp only [ev_fma hI, ev_add hI, ev_mul hI]; ring
    · split
      · next b c p q hy =>
        obtain rfl := asAddMulMul_eq hy
        intro h
        obtain ⟨h2, h1⟩ := allN_fn2_args h
        obtain ⟨h3, h4⟩ := allN_fn2_args h2
        obtain ⟨h5, h6⟩ := allN_fn2_args h3
        obtain ⟨h7, h8⟩ := allN_fn2_args h4
        refine ⟨allN_fn3 _ _ _ _ (okA_3 ar_fma _ _ _) h5 h6
          (allN_fn3 _ _ _ _ (okA_3 ar_fma _ _ _) h7 h8 h1), fun ρ _ => ?_⟩
        simp only [ev_fma hI, ev_add hI, ev_mul hI]; ring
      · exact Keeps.rfl

omit hd in
theorem add_mul_left (b c y : Expr) : Keeps I C (fn2 nAdd (fn2 nMul b c) y) (fn3 nFMA b c y) := by
  intro h
  obtain ⟨h1, h2⟩ := allN_fn2_args h
  obtain ⟨h3, h4⟩ := allN_fn2_args h1
  refine ⟨allN_fn3 _ _ _ _ (okA_3 ar_fma _ _ _) h3 h4 h2, fun ρ _ => ?_⟩
  simp only [ev_fma hI, ev_add hI, ev_mul hI]

omit hd in
theorem add_mul_right (b c x : Expr) : Keeps I C (fn2 nAdd x (fn2 nMul b c)) (fn3 nFMA b c x) := by
  intro h
  obtain ⟨h1, h2⟩ := allN_fn2_args h
  obtain ⟨h3, h4⟩ := allN_fn2_args h2
  refine ⟨allN_fn3 _ _ _ _ (okA_3 ar_fma _ _ _) h3 h4 h1, fun ρ _ => ?_⟩
  simp only [ev_fma hI, ev_add hI, ev_mul hI]; ring

omit hd in
theorem sub_mul_left (b c y : Expr) : Keeps I C (fn2 nSub (fn2 nMul b c) y) (fn3 nFMS b c y) := by
  intro h
  obtain ⟨h1, h2⟩ := allN_fn2_args h
  obtain ⟨h3, h4⟩ := allN_fn2_args h1
  refine ⟨allN_fn3 _ _ _ _ (okA_3 ar_fms _ _ _) h3 h4 h2, fun ρ _ => ?_⟩
  simp only [ev_fms hI, ev_sub hI, ev_mul hI]

omit hd in
theorem sub_mul_right (b c x : Expr) : Keeps I C (fn2 nSub x (fn2 nMul b c)) (fn3 nNFMA b c x) := by
  intro h
  obtain ⟨h1, h2⟩ := allN_fn2_args h
  obtain ⟨h3, h4⟩ := allN_fn2_args h2
  refine ⟨allN_fn3 _ _ _ _ (okA_3 ar_nfma _ _ _) h3 h4 h1, fun ρ _ => ?_⟩
  simp only [ev_nfma hI, ev_sub hI, ev_mul hI]; ring

omit hd in
theorem singleFMA_keeps : Keeps I C e (singleFMA e) := by
  unfold singleFMA
  split
  · next x y h =>
    obtain rfl := as2_eq h
    split
    · next b c hx => obtain rfl := as2_eq hx; exact add_mul_left hI b c y
    · split
      · next b c hy => obtain rfl := as2_eq hy; exact add_mul_right hI b c x
      · exact Keeps.rfl
  · split
    · next x y h =>
      obtain rfl := as2_eq h
      split
      · next b c hx => obtain rfl := as2_eq hx; exact sub_mul_left hI b c y
      · split
        · next b c hy => obtain rfl := as2_eq hy; exact sub_mul_right hI b c x
        · exact Keeps.rfl
    · exact Keeps.rfl

theorem step5b_keeps : Keeps I C e (step5b d e) := by
  unfold step5b
  split
  · next a b c h =>
    split
    · next p q hb =>
      split
      · next hv =>
        refine (singleFMA_keeps hI e).trans ?_
        rw [as3_eq h, as2_eq hb]
        intro h
        obtain ⟨h1, h2, h3⟩ := allN_fn3_args h
        obtain ⟨h4, h5⟩ := allN_fn2_args h2
        refine ⟨allN_fn3 _ _ _ _ (okA_3 ar_nfms _ _ _) h4 h5 h3, fun ρ hρ => ?_⟩
        simp only [ev_nfms hI, ev_fms hI, ev_mul hI, isVal_eval (hd ρ hρ) hv]; push_cast; ring
      · exact singleFMA_keeps hI e
    · exact singleFMA_keeps hI e
  · exact singleFMA_keeps hI e

omit hI hd in
theorem as3Mul_eq {n : Str} {e b c p q : Expr} (h : as3Mul n e = some (b, c, p, q)) :
    e = fn3 n b c (fn2 nMul p q) := by
  unfold as3Mul at h
  split at h
  · cases h
  · next x y z he =>
    split at h
    · next hz =>
      simp only [Option.some.injEq, Prod.mk.injEq] at h
      obtain ⟨rfl, rfl, rfl, rfl⟩ := h
      rw [as3_eq he, as2_eq hz]
    · cases h

omit hd in
theorem step5c_keeps : Keeps I C e (step5c d e) := by
  unfold step5c
  split
  · next x y h =>
    obtain rfl := as2_eq h
    split
    · next b c p q hy =>
      obtain rfl := as3Mul_eq hy
      intro h
      obtain ⟨h1, h2⟩ := allN_fn2_args h
      obtain ⟨h3, h4, h5⟩ := allN_fn3_args h2
      obtain ⟨h6, h7⟩ := allN_fn2_args h5
      refine ⟨allN_fn3 _ _ _ _ (okA_3 ar_fms _ _ _) h3 h4
        (allN_fn3 _ _ _ _ (okA_3 ar_fms _ _ _) h6 h7 h1), fun ρ _ => ?_⟩
      simp only [ev_fms hI, ev_add hI, ev_mul hI]; ring
    · exact Keeps.rfl
  · split
    · next x y h =>
      obtain rfl := as2_eq h
      split
      · next b c p q hx =>
        obtain rfl := as3Mul_eq hx
        intro h
        obtain ⟨h2, h1⟩ := allN_fn2_args h
        obtain ⟨h3, h4, h5⟩ := allN_fn3_args h2
        obtain ⟨h6, h7⟩ := allN_fn2_args h5
        refine ⟨allN_fn3 _ _ _ _ (okA_3 ar_fma _ _ _) h3 h4
          (allN_fn3 _ _ _ _ (okA_3 ar_fms _ _ _) h6 h7 h1), fun ρ _ => ?_⟩
        simp only [ev_fms hI, ev_fma hI, ev_sub hI, ev_mul hI]; ring
      · split
        · next b c p q hx =>
          obtain rfl := as3Mul_eq hx
          intro h
          obtain ⟨h2, h1⟩ := allN_fn2_args h
          obtain ⟨h3, h4, h5⟩ := allN_fn3_args h2
          obtain ⟨h6, h7⟩ := allN_fn2_args h5
          refine ⟨allN_fn3 _ _ _ _ (okA_3 ar_fms _ _ _) h3 h4
            (allN_fn3 _ _ _ _ (okA_3 ar_fma _ _ _) h6 h7 h1), fun ρ _ => ?_⟩
          simp only [ev_fms hI, ev_fma hI, ev_sub hI, ev_mul hI]; ring
        · exact Keeps.rfl
    · exact Keeps.rfl

theorem dropNeg_spec {e b : Expr} (h : dropNeg d e = some b) :
    (AllN I C okA e → AllN I C okA b) ∧ ∀ ρ ∈ C, eval I ρ e = -eval I ρ b := by
  unfold dropNeg at h
  split at h
  · cases h
  · next p q he =>
    obtain rfl := as2_eq he
    split at h
    · next hp =>
      simp only [Option.some.injEq] at h
      subst h
      refine ⟨fun h => (allN_fn2_args h).2, fun ρ hρ => ?_⟩
      rw [ev_mul hI, isVal_eval (hd ρ hρ) hp]; push_cast; ring
    · split at h
      · next hq =>
        simp only [Option.some.injEq] at h
        subst h
        refine ⟨fun h => (allN_fn2_args h).1, fun ρ hρ => ?_⟩
        rw [ev_mul hI, isVal_eval (hd ρ hρ) hq]; push_cast; ring
      · cases h

theorem step5d_keeps : Keeps I C e (step5d d e) := by
  unfold step5d
  split
  · exact Keeps.rfl
  · next a b c h =>
    obtain rfl := as3_eq h
    split
    · next b' hb =>
      intro h
      obtain ⟨h1, h2, h3⟩ := allN_fn3_args h
      obtain ⟨k1, k2⟩ := dropNeg_spec (C := C) hI hd hb
      refine ⟨allN_fn3 _ _ _ _ (okA_3 ar_nfma _ _ _) h1 (k1 h2) h3, fun ρ hρ => ?_⟩
      simp only [ev_nfma hI, ev_fma hI, k2 ρ hρ]; ring
    · split
      · next a' ha =>
        intro h
        obtain ⟨h1, h2, h3⟩ := allN_fn3_args h
        obtain ⟨k1, k2⟩ := dropNeg_spec (C := C) hI hd ha
        refine ⟨allN_fn3 _ _ _ _ (okA_3 ar_nfma _ _ _) (k1 h1) h2 h3, fun ρ hρ => ?_⟩
        simp only [ev_nfma hI, ev_fma hI, k2 ρ hρ]
      · exact Keeps.rfl

theorem step5e_keeps : Keeps I C e (step5e d e) := by
  unfold step5e
  split
  · next a b c h =>
    obtain rfl := as3_eq h
    split
    · next hv =>
      intro h
      obtain ⟨h1, h2, h3⟩ := allN_fn3_args h
      refine ⟨allN_fn2 _ _ _ (okA_2 ar_sub _ _) h3 h2, fun ρ hρ => ?_⟩
      simp only [ev_sub hI, ev_fma hI, isVal_eval (hd ρ hρ) hv]; push_cast; ring
    · split
      · next hv =>
        intro h
        obtain ⟨h1, h2, h3⟩ := allN_fn3_args h
        refine ⟨allN_fn2 _ _ _ (okA_2 ar_sub _ _) h3 h1, fun ρ hρ => ?_⟩
        simp only [ev_sub hI, ev_fma hI, isVal_eval (hd ρ hρ) hv]; push_cast; ring
      · exact Keeps.rfl
  · split
    · next a b c h =>
      obtain rfl := as3_eq h
      split
      · next hv =>
        intro h
        obtain ⟨h1, h2, h3⟩ := allN_fn3_args h
        refine ⟨allN_fn2 _ _ _ (okA_2 ar_mul _ _) h2 (allN_fn2 _ _ _ (okA_2 ar_add _ _) h1 h3),
          fun ρ hρ => ?_⟩
        simp only [ev_mul hI, ev_add hI, ev_fms hI, isVal_eval (hd ρ hρ) hv]; push_cast; ring
      · split
        · next hv =>
          intro h
          obtain ⟨h1, h2, h3⟩ := allN_fn3_args h
          refine ⟨allN_fn2 _ _ _ (okA_2 ar_mul _ _) h1 (allN_fn2 _ _ _ (okA_2 ar_add _ _) h2 h3),
            fun ρ hρ => ?_⟩
          simp only [ev_mul hI, ev_add hI, ev_fms hI, isVal_eval (hd ρ hρ) hv]; push_cast; ring
        · exact Keeps.rfl
    · exact Keeps.rfl

theorem step5f_keeps : Keeps I C e (step5f d e) := by
  unfold step5f
  split
  · next a b c h =>
    obtain rfl := as3_eq h
    split
    · next c' hc =>
      intro h
      obtain ⟨h1, h2, h3⟩ := allN_fn3_args h
      obtain ⟨k1, k2⟩ := dropNeg_spec (C := C) hI hd hc
      refine ⟨allN_fn3 _ _ _ _ (okA_3 ar_nfms _ _ _) h1 h2 (k1 h3), fun ρ hρ => ?_⟩
      simp only [ev_nfma hI, ev_nfms hI, k2 ρ hρ]; ring
    · exact Keeps.rfl
  · split
    · next a b c h =>
      obtain rfl := as3_eq h
      split
      · next b' hb =>
        intro h
        obtain ⟨h1, h2, h3⟩ := allN_fn3_args h
        obtain ⟨k1, k2⟩ := dropNeg_spec (C := C) hI hd hb
        refine ⟨allN_fn3 _ _ _ _ (okA_3 ar_nfms _ _ _) h1 (k1 h2) h3, fun ρ hρ => ?_⟩
        simp only [ev_fms hI, ev_nfms hI, k2 ρ hρ]; ring
      · split
        · next p q hb =>
          obtain rfl := as2_eq hb
          split
          · next q' hq =>
            intro h
            obtain ⟨h1, h2, h3⟩ := allN_fn3_args h
            obtain ⟨h4, h5⟩ := allN_fn2_args h2
            obtain ⟨k1, k2⟩ := dropNeg_spec (C := C) hI hd hq
            refine ⟨allN_fn3 _ _ _ _ (okA_3 ar_nfms _ _ _) h1
              (allN_fn2 _ _ _ (okA_2 ar_mul _ _) h4 (k1 h5)) h3, fun ρ hρ => ?_⟩
            simp only [ev_fms hI, ev_nfms hI, ev_mul hI, k2 ρ hρ]; ring
          · exact Keeps.rfl
        · exact Keeps.rfl
    · exact Keeps.rfl

omit hd in
theorem step5g_keeps : Keeps I C e (step5g d e) := by
  unfold step5g
  split
  · next x y h =>
    obtain rfl := as2_eq h
    split
    · next b c hx => obtain rfl := as2_eq hx; exact add_mul_left hI b c y
    · split
      · next b c hy => obtain rfl := as2_eq hy; exact add_mul_right hI b c x
      · exact Keeps.rfl
  · split
    · next x y h =>
      obtain rfl := as2_eq h
      split
      · next b c hx => obtain rfl := as2_eq hx; exact sub_mul_left hI b c y
      · exact Keeps.rfl
    · exact Keeps.rfl

end
end Verif.SIMD
