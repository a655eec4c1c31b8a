import Verif.SIMD.Value
import Mathlib.Analysis.SpecialFunctions.Trigonometric.Complex

/-!
# Every step of the conversion keeps the value (helper lemmas)
-/
namespace Verif.SIMD
open Verif.Py Verif.Sympy Verif.Sympy.Expr

section
variable {I : Interp ℝ} {C : Set (Str → ℝ)}

/-- Numbers of arguments. -/
def okA (h : Head) (vs : List (C → ℝ)) : Prop :=
  match h with
  | .add => 2 ≤ vs.length
  | .mul => 2 ≤ vs.length
  | .pow => vs.length = 2
  | .fn n => ∀ k, arityOf n = some k → vs.length = k

/-- In addition: the summands of a sum are distinct as functions, and no exponent is identically zero. -/
def okS (h : Head) (vs : List (C → ℝ)) : Prop :=
  okA h vs ∧ (h = .add → vs.Nodup) ∧ (h = .pow → ∀ a x, vs = [a, x] → x ≠ 0)

theorem okA_of_okS (h : Head) (vs : List (C → ℝ)) (H : okS h vs) : okA h vs := H.1

theorem okS_fn {n : Str} {vs : List (C → ℝ)} (H : okA (.fn n) vs) : okS (.fn n) vs :=
  ⟨H, by simp, by simp⟩

section
variable {ok : Head → List (C → ℝ) → Prop}

theorem allN_fn1 (n : Str) (a : Expr) (h : ok (.fn n) [V I C a]) (ha : AllN I C ok a) :
    AllN I C ok (fn1 n a) := by
  rw [fn1, allN_app]; simpa using ⟨h, ha⟩
theorem allN_fn2 (n : Str) (a b : Expr) (h : ok (.fn n) [V I C a, V I C b]) (ha : AllN I C ok a)
    (hb : AllN I C ok b) : AllN I C ok (fn2 n a b) := by
  rw [fn2, allN_app]; simpa using ⟨h, ha, hb⟩
theorem allN_fn3 (n : Str) (a b c : Expr) (h : ok (.fn n) [V I C a, V I C b, V I C c])
    (ha : AllN I C ok a) (hb : AllN I C ok b) (hc : AllN I C ok c) : AllN I C ok (fn3 n a b c) := by
  rw [fn3, allN_app]; simpa using ⟨h, ha, hb, hc⟩
theorem allN_fn2_args {n : Str} {a b : Expr} (h : AllN I C ok (fn2 n a b)) :
    AllN I C ok a ∧ AllN I C ok b := by
  rw [fn2, allN_app] at h; simpa using h.2
theorem allN_fn3_args {n : Str} {a b c : Expr} (h : AllN I C ok (fn3 n a b c)) :
    AllN I C ok a ∧ AllN I C ok b ∧ AllN I C ok c := by
  rw [fn3, allN_app] at h; simpa using h.2
end

theorem okA_2 {n : Str} (hn : arityOf n = some 2) (x y : C → ℝ) : okA (.fn n) [x, y] := by
  intro k hk; rw [hn] at hk; simpa using hk
theorem okA_3 {n : Str} (hn : arityOf n = some 3) (x y z : C → ℝ) : okA (.fn n) [x, y, z] := by
  intro k hk; rw [hn] at hk; simpa using hk
theorem okA_1 {n : Str} (hn : arityOf n = some 1) (x : C → ℝ) : okA (.fn n) [x] := by
  intro k hk; rw [hn] at hk; simpa using hk

theorem ar_add : arityOf nAdd = some 2 := by decide
theorem ar_sub : arityOf nSub = some 2 := by decide
theorem ar_mul : arityOf nMul = some 2 := by decide
theorem ar_div : arityOf nDiv = some 2 := by decide
theorem ar_pow : arityOf nPow = some 2 := by decide
theorem ar_sqrt : arityOf nSqrt = some 1 := by decide
theorem ar_cbrt : arityOf nCbrt = some 1 := by decide
theorem ar_fma : arityOf nFMA = some 3 := by decide
theorem ar_fms : arityOf nFMS = some 3 := by decide
theorem ar_nfma : arityOf nNFMA = some 3 := by decide
theorem ar_nfms : arityOf nNFMS = some 3 := by decide

/-- The table agrees with the valuations considered. -/
def JC (C : Set (Str → ℝ)) (d : Table) : Prop := ∀ ρ ∈ C, Consistent d ρ

/-! ### Step 1.a -/

theorem step1a_ok (d : Table) (e : Expr) (he : AllN I C okS e) : AllN I C okS (step1a d e) := by
  unfold step1a
  split
  · next n l =>
    split
    · next p hp =>
      rw [allN_app] at he ⊢
      refine ⟨okS_fn ?_, he.2⟩
      have hm := List.mem_of_find?_eq_some hp
      have h1 : p.1 = n := by simpa using List.find?_some hp
      have ha := he.1.1
      have har : ∀ q ∈ simdName, arityOf q.1 = some 1 ∧ arityOf q.2 = some 1 := by decide
      intro k hk
      rw [(har p hm).2] at hk
      rw [← h1] at ha
      exact ha k ((har p hm).1.trans hk)
    · exact he
  · exact he

theorem step1a_val (hI : Sem I) (d : Table) (e : Expr) (he : AllN I C okS e) :
    V I C (step1a d e) = V I C e := by
  unfold step1a
  split
  · next n l =>
    split
    · next p hp =>
      rw [allN_app] at he
      have hm := List.mem_of_find?_eq_some hp
      have h1 : p.1 = n := by simpa using List.find?_some hp
      have ha : l.length = 1 := by
        have ha := he.1.1
        have har : ∀ q ∈ simdName, arityOf q.1 = some 1 := by decide
        rw [← h1] at ha
        simpa using ha 1 (har p hm)
      obtain ⟨x, rfl⟩ := List.length_eq_one_iff.1 ha
      funext ρ
      simp only [V, eval_app, List.map_cons, List.map_nil, Interp.app]
      subst h1
      simp only [simdName, List.mem_cons, List.not_mem_nil, or_false] at hm
      rcases hm with rfl | rfl | rfl | rfl | rfl | rfl
      · exact (hI.absS _).trans (hI.abs _).symm
      · exact (hI.expS _).trans (hI.exp _).symm
      · exact (hI.logS _).trans (hI.log _).symm
      · exact (hI.sinS _).trans (hI.sin _).symm
      · exact (hI.cosS _).trans (hI.cos _).symm
      · exact (hI.signS _).trans (hI.sign _).symm
    · rfl
  · rfl

/-! ### Step 1.b -/

/-- What is assumed of SymPy's evaluation of sums and products. -/
structure CanonOk (I : Interp ℝ) (canon : Expr → Expr) : Prop where
  /-- the value does not change -/
  val : ∀ ρ e, eval I ρ (canon e) = eval I ρ e
  /-- no new symbols -/
  free : ∀ e, ∀ s ∈ (canon e).free, s ∈ e.free
  /-- a product is turned into an expression made of the factors, products and powers -/
  mulNodes : ∀ l h m, (h, m) ∈ nodes (canon (.app .mul l)) → (∃ a ∈ l, (h, m) ∈ nodes a) ∨
    (h = .mul ∧ 2 ≤ m.length) ∨ (h = .pow ∧ ∃ a q, m = [a, .num q] ∧ q ≠ 0)
  /-- a sum is turned into a sum of two or more terms or something made of its terms ... -/
  addRoot : ∀ l g m, 2 ≤ l.length → canon (.app .add l) = .app g m → (∃ a ∈ l, (g, m) ∈ nodes a) ∨
    (g = .add ∧ 2 ≤ m.length) ∨ (g = .mul ∧ 2 ≤ m.length)
  /-- ... whose arguments are made of the summands, products and powers -/
  addArgs : ∀ l g m, 2 ≤ l.length → canon (.app .add l) = .app g m → ∀ b ∈ m, ∀ h n, (h, n) ∈ nodes b →
    (∃ a ∈ l, (h, n) ∈ nodes a) ∨ (h = .mul ∧ 2 ≤ n.length) ∨
      (h = .pow ∧ ∃ a q, n = [a, .num q] ∧ q ≠ 0)

theorem V_num_ne (hC : C.Nonempty) {q : ℚ} (hq : q ≠ 0) : V I C (.num q) ≠ 0 := by
  intro h
  obtain ⟨ρ, hρ⟩ := hC
  have := congrFun h ⟨ρ, hρ⟩
  simp [V] at this
  exact hq this

theorem okS_new (hC : C.Nonempty) {P : Prop} {h : Head} {m : List Expr} (hP : P → okS h (m.map (V I C)))
    (H : P ∨ (h = .mul ∧ 2 ≤ m.length) ∨ (h = .pow ∧ ∃ a q, m = [a, .num q] ∧ q ≠ 0)) :
    okS h (m.map (V I C)) := by
  rcases H with H | ⟨rfl, H⟩ | ⟨rfl, a, q, rfl, hq⟩
  · exact hP H
  · exact ⟨by simpa [okA] using H, by simp, by simp⟩
  · refine ⟨by simp [okA], by simp, ?_⟩
    intro _ b x hx
    simp only [List.map_cons, List.map_nil, List.cons.injEq, and_true] at hx
    rw [← hx.2]
    exact V_num_ne hC hq

theorem allN_canon_mul {canon : Expr → Expr} (hc : CanonOk I canon) (hC : C.Nonempty) {l : List Expr}
    (hl : ∀ a ∈ l, AllN I C okS a) : AllN I C okS (canon (.app .mul l)) := by
  rintro ⟨h, m⟩ hn
  refine okS_new hC ?_ (hc.mulNodes l h m hn)
  rintro ⟨a, ha, hn⟩
  exact hl a ha _ hn

theorem intPowNat_val (hI : Sem I) (ρ : Str → ℝ) (a : Expr) :
    ∀ n, n ≠ 0 → eval I ρ (intPowNat a n) = eval I ρ a ^ n
  | 0, h => absurd rfl h
  | 1, _ => by simp [intPowNat]
  | 2, _ => by rw [intPowNat, ev_mul hI]; ring
  | n + 3, _ => by
    rw [intPowNat, ev_mul hI, intPowNat_val hI ρ a (n + 2) (by omega), ← pow_succ]
    · intro h; omega
    · intro h; omega

theorem intPowNat_ok {ok : Head → List (C → ℝ) → Prop} (hok : ∀ x y, ok (.fn nMul) [x, y]) {a : Expr}
    (ha : AllN I C ok a) : ∀ n, AllN I C ok (intPowNat a n)
  | 0 => ha
  | 1 => ha
  | 2 => allN_fn2 _ _ _ (hok _ _) ha ha
  | n + 3 => by
    rw [intPowNat]
    · exact allN_fn2 _ _ _ (hok _ _) (intPowNat_ok hok ha (n + 2)) ha
    · intro h; omega
    · intro h; omega

theorem intPow_val (hI : Sem I) (ρ : Str → ℝ) (pre : Str) (h1 : ρ (oneSym pre) = 1) (a : Expr) (n : ℤ)
    (hn : n ≠ 0) : eval I ρ (intPow pre a n) = eval I ρ a ^ n := by
  unfold intPow
  split
  · next h =>
    rw [intPowNat_val hI ρ a _ (by omega), ← zpow_natCast, Int.toNat_of_nonneg h]
  · next h =>
    split
    · next h' => rw [ev_div hI, eval_sym, h1, h', zpow_neg_one, one_div]
    · next h' =>
      rw [ev_div hI, eval_sym, h1, intPowNat_val hI ρ a _ (by omega), ← zpow_natCast,
        Int.toNat_of_nonneg (by omega), zpow_neg, one_div, inv_inv]

theorem intPow_ok {ok : Head → List (C → ℝ) → Prop} (hok : ∀ x y, ok (.fn nMul) [x, y])
    (hok' : ∀ x y, ok (.fn nDiv) [x, y]) (pre : Str) {a : Expr} (ha : AllN I C ok a) (n : ℤ) :
    AllN I C ok (intPow pre a n) := by
  unfold intPow
  split
  · exact intPowNat_ok hok ha _
  · split
    · exact allN_fn2 _ _ _ (hok' _ _) (by simp) ha
    · exact allN_fn2 _ _ _ (hok' _ _) (by simp) (intPowNat_ok hok ha _)

/-- Negative half-integer powers in terms of the square root, also where the base is not positive. -/
theorem rpow_neg_half (x : ℝ) (k : ℕ) : x ^ (-(k + 1 / 2 : ℝ)) = 1 / (√x * x ^ k) := by
  rcases lt_trichotomy x 0 with hx | rfl | hx
  · rw [Real.sqrt_eq_zero_of_nonpos hx.le, zero_mul, div_zero, Real.rpow_def_of_neg hx]
    have : Real.cos (-(k + 1 / 2 : ℝ) * Real.pi) = 0 := by
      rw [Real.cos_eq_zero_iff]
      exact ⟨-(k + 1), by push_cast; ring⟩
    rw [this, mul_zero]
  · rw [Real.sqrt_zero, zero_mul, div_zero, Real.zero_rpow]
    have : (0 : ℝ) ≤ k := Nat.cast_nonneg k
    intro h; linarith
  · rw [Real.rpow_neg hx.le, Real.rpow_add hx, Real.rpow_natCast, Real.sqrt_eq_rpow, mul_comm, ← one_div]

theorem declareOne_J {pre : Str} (hC : ∀ ρ ∈ C, ρ (oneSym pre) = 1) (n : ℤ) {d : Table} (hd : JC C d) :
    JC C (declareOne pre n d) := by
  unfold declareOne
  split
  · split
    · exact hd
    · intro ρ hρ s q h
      by_cases hs : oneSym pre = s
      · subst hs
        rw [Dict.get?_set_self] at h
        rw [hC ρ hρ]
        simp at h
        simp [← h]
      · rw [Dict.get?_set_ne _ _ (Ne.symm hs)] at h
        exact hd ρ hρ s q h
  · exact hd

theorem step1b_J {canon : Expr → Expr} {pre : Str} (hC : ∀ ρ ∈ C, ρ (oneSym pre) = 1) {d : Table}
    (e : Expr) (hd : JC C d) : JC C (step1b canon pre d e).2 := by
  unfold step1b
  split
  · dsimp only
    split
    · split_ifs <;> first | exact hd | exact declareOne_J hC _ hd
    · exact hd
  · exact hd

theorem step1b_val {canon : Expr → Expr} {pre : Str} (hI : Sem I) (hc : CanonOk I canon)
    (hC : ∀ ρ ∈ C, ρ (oneSym pre) = 1) (hne : C.Nonempty) {d : Table} (e : Expr) (hd : JC C d)
    (he : AllN I C okS e) : V I C (step1b canon pre d e).1 = V I C e := by
  unfold step1b
  split
  · next a x =>
    rw [allN_app] at he
    have hx := he.1.2.2 rfl (V I C a) (V I C x) rfl
    dsimp only
    split
    · next q hq =>
      have hev : ∀ ρ ∈ C, eval I ρ x = q := fun ρ hρ => lookup_eval (hd ρ hρ) hq
      have hq0 : q ≠ 0 := by
        rintro rfl
        apply hx
        funext ρ
        simpa [V] using hev ρ.1 ρ.2
      have hp : ∀ ρ ∈ C, eval I ρ (.app .pow [a, x]) = eval I ρ a ^ (q : ℝ) := by
        intro ρ hρ
        rw [eval_app]
        simp only [List.map_cons, List.map_nil, Interp.app, hI.pow, hev ρ hρ]
      split_ifs with h1 h2 h3 h4 h5 h6
      all_goals (funext ρ; simp only [V]; rw [hp ρ.1 ρ.2])
      · rw [ev_sqrt hI, Real.sqrt_eq_rpow, h1]; norm_num
      · have := rpow_neg_half (eval I ρ.1 a) 0
        rw [ev_div hI, ev_sqrt hI, eval_sym, hC ρ.1 ρ.2, h2]
        simp only [pow_zero, mul_one] at this
        rw [← this]; norm_num
      · have := rpow_neg_half (eval I ρ.1 a) 1
        rw [ev_div hI, hc.val, eval_sym, hC ρ.1 ρ.2, h3, eval_app]
        simp only [Interp.app, List.map_cons, List.map_nil, List.prod_cons, List.prod_nil, mul_one,
          ev_sqrt hI]
        simp only [pow_one] at this
        rw [← this]; norm_num
      · have := rpow_neg_half (eval I ρ.1 a) 2
        rw [ev_div hI, hc.val, eval_sym, hC ρ.1 ρ.2, h4, eval_app]
        simp only [Interp.app, List.map_cons, List.map_nil, List.prod_cons, List.prod_nil, mul_one,
          ev_sqrt hI]
        rw [← pow_two, ← this]; norm_num
      · rw [ev_cbrt hI, h5]; norm_num
      · have hqn : (q : ℝ) = ((q.num : ℤ) : ℝ) := by
          have := Rat.coe_int_num_of_den_eq_one h6
          exact_mod_cast congrArg (fun r : ℚ => (r : ℝ)) this.symm
        rw [intPow_val hI ρ.1 pre (hC ρ.1 ρ.2) a q.num (Rat.num_ne_zero.2 hq0), hqn, Real.rpow_intCast]
      · rw [ev_pow hI, hev ρ.1 ρ.2]
    · funext ρ
      simp only [V]
      rw [ev_pow hI, eval_app]
      simp only [List.map_cons, List.map_nil, Interp.app, hI.pow]
  · rfl

theorem step1b_ok {canon : Expr → Expr} {pre : Str} (hc : CanonOk I canon) (hne : C.Nonempty)
    {d : Table} (e : Expr) (he : AllN I C okS e) : AllN I C okS (step1b canon pre d e).1 := by
  unfold step1b
  split
  · next a x =>
    rw [allN_app] at he
    have ha : AllN I C okS a := he.2 a (by simp)
    have hx : AllN I C okS x := he.2 x (by simp)
    have hs : AllN I C okS (fn1 nSqrt a) := allN_fn1 _ _ (okS_fn (okA_1 ar_sqrt _)) ha
    have hdiv : ∀ y, AllN I C okS y → AllN I C okS (fn2 nDiv (.sym (oneSym pre)) y) := fun y hy =>
      allN_fn2 _ _ _ (okS_fn (okA_2 ar_div _ _)) (by simp) hy
    dsimp only
    split
    · split_ifs
      · exact hs
      · exact hdiv _ hs
      · exact hdiv _ (allN_canon_mul hc hne (by simpa using ⟨hs, ha⟩))
      · exact hdiv _ (allN_canon_mul hc hne (by simpa using ⟨hs, ha⟩))
      · exact allN_fn1 _ _ (okS_fn (okA_1 ar_cbrt _)) ha
      · exact intPow_ok (fun x y => okS_fn (okA_2 ar_mul x y)) (fun x y => okS_fn (okA_2 ar_div x y)) _
          ha _
      · exact allN_fn2 _ _ _ (okS_fn (okA_2 ar_pow _ _)) ha hx
    · exact allN_fn2 _ _ _ (okS_fn (okA_2 ar_pow _ _)) ha hx
  · exact he

/-! ### Step 2 -/

theorem perm_two {l : List Expr} (hl : l.Nodup) {a b : Expr} (ha : a ∈ l) (hb : b ∈ l) (hab : a ≠ b) :
    l.Perm (a :: b :: l.filter fun c => !(decide (c = a) || decide (c = b))) := by
  rw [List.perm_ext_iff_of_nodup hl]
  · intro c
    simp only [List.mem_cons, List.mem_filter]
    constructor
    · intro hc
      by_cases h1 : c = a
      · exact .inl h1
      by_cases h2 : c = b
      · exact .inr (.inl h2)
      exact .inr (.inr ⟨hc, by simp [h1, h2]⟩)
    · rintro (rfl | rfl | h)
      · exact ha
      · exact hb
      · exact h.1
  · rw [List.nodup_cons, List.nodup_cons]
    exact ⟨by simp [hab], by simp, hl.filter _⟩

/-- The case in which step 2 rewrites. -/
theorem step2_cases (canon : Expr → Expr) (d : Table) (e : Expr) :
    step2 canon d e = e ∨ ∃ (l m : List Expr) (j : Nat) (k : Expr) (rest : List Expr),
      e = .app .add l ∧ Expr.app .mul m ∈ l ∧ k ∈ l ∧
      (∃ i k' : Nat, i ≠ k' ∧ l[i]? = some (Expr.app .mul m) ∧ l[k']? = some k) ∧
      (∃ hj : j < m.length, isVal d (-1) m[j] = true) ∧
      rest = l.filter (fun a => !(decide (a = .app .mul m) || decide (a = k))) ∧
      step2 canon d e = (let sub := fn2 nSub k (canon (.app .mul (m.eraseIdx j)))
        if 0 < rest.length then canon (.app .add (sub :: rest)) else sub) := by
  generalize hr : step2 canon d e = r
  unfold step2 at hr
  split at hr
  · next l =>
    split at hr
    · exact .inl hr.symm
    · next i hi =>
      split at hr
      · next m hm =>
        split at hr
        · next j k hj hk =>
          right
          refine ⟨l, m, j, k, _, rfl, List.mem_of_getElem? hm, List.mem_of_getElem? hk,
            ⟨i, if i = 0 then 1 else 0, ?_, hm, hk⟩, ?_, rfl, hr.symm⟩
          · split <;> omega
          · obtain ⟨h1, h2, _⟩ := List.findIdx?_eq_some_iff_getElem.1 hj
            exact ⟨h1, h2⟩
        · exact .inl hr.symm
      · exact .inl hr.symm
  · exact .inl hr.symm

theorem prod_erase (v : Expr → ℝ) {m : List Expr} {j : Nat} (hj : j < m.length) :
    (m.map v).prod = v m[j] * ((m.eraseIdx j).map v).prod := by
  have := List.getElem_cons_eraseIdx_perm hj
  rw [← (this.map v).prod_eq]
  simp

theorem step2_val {canon : Expr → Expr} (hI : Sem I) (hc : CanonOk I canon) {d : Table} (e : Expr)
    (hd : JC C d) (he : AllN I C okS e) : V I C (step2 canon d e) = V I C e := by
  rcases step2_cases canon d e with h | ⟨l, m, j, k, rest, rfl, hm, hk, ⟨i, k', hik, hi, hk'⟩, ⟨hj, hv⟩, hrest, h⟩
  · rw [h]
  · rw [h]
    rw [allN_app] at he
    have hnd : l.Nodup := List.Nodup.of_map _ (he.1.2.1 rfl)
    have hne : (.app .mul m : Expr) ≠ k := by
      rintro rfl
      obtain ⟨h1, h1'⟩ := List.getElem?_eq_some_iff.1 hi
      obtain ⟨h2, h2'⟩ := List.getElem?_eq_some_iff.1 hk'
      exact hik ((List.Nodup.getElem_inj_iff hnd).1 (h1'.trans h2'.symm))
    have hp := perm_two hnd hm hk hne
    rw [← hrest] at hp
    funext ρ
    have hsub : eval I ρ.1 (fn2 nSub k (canon (.app .mul (m.eraseIdx j)))) =
        eval I ρ.1 k + eval I ρ.1 (.app .mul m) := by
      rw [ev_sub hI, hc.val, eval_app, eval_app]
      simp only [Interp.app]
      rw [prod_erase _ hj, isVal_eval (hd ρ.1 ρ.2) hv]
      push_cast
      ring
    have hsum : eval I ρ.1 (.app .add l) =
        eval I ρ.1 (.app .mul m) + (eval I ρ.1 k + (rest.map (eval I ρ.1)).sum) := by
      rw [eval_app]
      simp only [Interp.app]
      rw [(hp.map (eval I ρ.1)).sum_eq]
      simp
    simp only [V]
    rw [hsum]
    split
    · rw [hc.val, eval_app]
      simp only [Interp.app, List.map_cons, List.sum_cons]
      rw [hsub]; ring
    · next h0 =>
      have : rest = [] := List.length_eq_zero_iff.1 (by omega)
      rw [hsub, this]
      simp only [List.map_nil, List.sum_nil]
      ring

theorem allN_sub {canon : Expr → Expr} (hc : CanonOk I canon) (hne : C.Nonempty) {m : List Expr}
    {j : Nat} {k : Expr} (hm : AllN I C okS (.app .mul m)) (hk : AllN I C okS k) :
    AllN I C okS (fn2 nSub k (canon (.app .mul (m.eraseIdx j)))) := by
  refine allN_fn2 _ _ _ (okS_fn (okA_2 ar_sub _ _)) hk (allN_canon_mul hc hne ?_)
  rw [allN_app] at hm
  exact fun a ha => hm.2 a (List.mem_of_mem_eraseIdx ha)

theorem step2_args {canon : Expr → Expr} (hc : CanonOk I canon) (hne : C.Nonempty) {d : Table} (e : Expr)
    (he : AllN I C okS e) {h : Head} {l' : List Expr} (hs : step2 canon d e = .app h l') :
    okA h (l'.map (V I C)) ∧ ∀ a ∈ l', AllN I C okS a := by
  rcases step2_cases canon d e with h' | ⟨l, m, j, k, rest, rfl, hm, hk, -, -, hrest, h'⟩
  · rw [h'] at hs
    subst hs
    rw [allN_app] at he
    exact ⟨he.1.1, he.2⟩
  · rw [h'] at hs
    rw [allN_app] at he
    have hsub := allN_sub hc hne (j := j) (he.2 _ hm) (he.2 _ hk)
    have hall : ∀ a ∈ fn2 nSub k (canon (.app .mul (m.eraseIdx j))) :: rest, AllN I C okS a := by
      intro a ha
      rcases List.mem_cons.1 ha with rfl | ha
      · exact hsub
      · rw [hrest] at ha
        exact he.2 a (List.mem_of_mem_filter ha)
    dsimp only at hs
    split at hs
    · next h0 =>
      have h2 : 2 ≤ (fn2 nSub k (canon (.app .mul (m.eraseIdx j))) :: rest).length := by
        rw [List.length_cons]; omega
      constructor
      · rcases hc.addRoot _ _ _ h2 hs with ⟨a, ha, hn⟩ | ⟨rfl, hn⟩ | ⟨rfl, hn⟩
        · exact (hall a ha _ hn).1
        · simpa [okA] using hn
        · simpa [okA] using hn
      · rintro b hb ⟨g, n⟩ hn
        refine okS_new hne ?_ (hc.addArgs _ _ _ h2 hs b hb g n hn)
        rintro ⟨a, ha, hn⟩
        exact hall a ha _ hn
    · rw [hs, allN_app] at hsub
      exact ⟨hsub.1.1, hsub.2⟩

/-! ### Step 3 -/

theorem pairUp_ok {n : Str} (hn : arityOf n = some 2) : ∀ (l : List Expr) (s : Expr),
    (∀ a ∈ l, AllN I C okA a) → AllN I C okA s → AllN I C okA (pairUp n l s)
  | [], s, _, hs => hs
  | [a], s, hl, hs => allN_fn2 _ _ _ (okA_2 hn _ _) (hl a (by simp)) hs
  | a :: b :: l, s, hl, hs => by
    rw [pairUp]
    refine pairUp_ok hn l _ (fun c hc => hl c (by simp [hc])) ?_
    exact allN_fn2 _ _ _ (okA_2 hn _ _)
      (allN_fn2 _ _ _ (okA_2 hn _ _) (hl a (by simp)) (hl b (by simp))) hs

theorem nest_last {l : List Expr} (hl : 2 ≤ l.length) : ∃ a b, l.drop (l.length - 2) = [a, b] := by
  have : (l.drop (l.length - 2)).length = 2 := by rw [List.length_drop]; omega
  match hd : l.drop (l.length - 2), this with
  | [a, b], _ => exact ⟨a, b, rfl⟩

theorem nest_ok {n : Str} (hn : arityOf n = some 2) {l : List Expr} (hl : 2 ≤ l.length)
    (h : ∀ a ∈ l, AllN I C okA a) : AllN I C okA (nest n l) := by
  obtain ⟨a, b, hab⟩ := nest_last hl
  have hm : ∀ c ∈ [a, b], AllN I C okA c := fun c hc => h c (List.mem_of_mem_drop (hab ▸ hc))
  unfold nest
  rw [hab]
  exact pairUp_ok hn _ _ (fun c hc => h c (List.mem_of_mem_take hc))
    (allN_fn2 _ _ _ (okA_2 hn _ _) (hm a (by simp)) (hm b (by simp)))

theorem pairUp_add (hI : Sem I) (ρ : Str → ℝ) : ∀ (l : List Expr) (s : Expr),
    eval I ρ (pairUp nAdd l s) = (l.map (eval I ρ)).sum + eval I ρ s
  | [], s => by simp [pairUp]
  | [a], s => by rw [pairUp, ev_add hI]; simp
  | a :: b :: l, s => by
    rw [pairUp, pairUp_add hI ρ l, ev_add hI, ev_add hI]; simp; ring

theorem pairUp_mul (hI : Sem I) (ρ : Str → ℝ) : ∀ (l : List Expr) (s : Expr),
    eval I ρ (pairUp nMul l s) = (l.map (eval I ρ)).prod * eval I ρ s
  | [], s => by simp [pairUp]
  | [a], s => by rw [pairUp, ev_mul hI]; simp
  | a :: b :: l, s => by
    rw [pairUp, pairUp_mul hI ρ l, ev_mul hI, ev_mul hI]; simp; ring

theorem step3_val (hI : Sem I) (d : Table) (e : Expr) (he : AllN I C okA e) :
    V I C (step3 d e) = V I C e := by
  unfold step3
  split
  · next l =>
    rw [allN_app] at he
    obtain ⟨a, b, hab⟩ := nest_last (l := l) (by simpa [okA] using he.1)
    funext ρ
    simp only [V, eval_app, Interp.app, nest]
    rw [hab, pairUp_mul hI]
    have h2 : eval I ρ.1 (.app (.fn nMul) [a, b]) = ([a, b].map (eval I ρ.1)).prod := by
      have := ev_mul hI ρ.1 a b
      rw [fn2] at this
      rw [this]; simp
    rw [h2, ← hab, ← List.prod_append, ← List.map_append, List.take_append_drop]
  · next l =>
    rw [allN_app] at he
    obtain ⟨a, b, hab⟩ := nest_last (l := l) (by simpa [okA] using he.1)
    funext ρ
    simp only [V, eval_app, Interp.app, nest]
    rw [hab, pairUp_add hI]
    have h2 : eval I ρ.1 (.app (.fn nAdd) [a, b]) = ([a, b].map (eval I ρ.1)).sum := by
      have := ev_add hI ρ.1 a b
      rw [fn2] at this
      rw [this]; simp
    rw [h2, ← hab, ← List.sum_append, ← List.map_append, List.take_append_drop]
  · rfl

theorem step3_ok (d : Table) (e : Expr) (he : AllN I C okA e) : AllN I C okA (step3 d e) := by
  unfold step3
  split
  · next l =>
    rw [allN_app] at he
    exact nest_ok ar_mul (by simpa [okA] using he.1) he.2
  · next l =>
    rw [allN_app] at he
    exact nest_ok ar_add (by simpa [okA] using he.1) he.2
  · exact he

end
end Verif.SIMD
