import Verif.FD.PipelineLemmas

/-!
# Property C23 (upwinding) and C53 (the generated finite-difference code computes the derivatives)

The theorems run the whole generated prefix: for all registries and all sets of free symbols the program
compiles (every variable is declared once, before use) and each derivative symbol ends up with the value
of its stencil applied to the gridfunction in memory, times the grid-spacing factors.
-/
namespace Verif.FD
open Verif.Py Verif.Helpers Verif.CFunction

/-! ## Specification -/

/-- A gridfunction name that cannot be confused with a generated one. -/
structure CleanGf (gf : Str) : Prop where
  ne : gf ≠ []
  up : ¬ (c% "Upwind") <+: gf
  der : ¬ (c% "_d") <:+: gf
  marks : ∀ m ∈ offsetMarks, ¬ m <:+: gf

/-- The derivative operators a user writes. -/
def userOps : List Str := [(c% "dD"), (c% "dDD"), (c% "dKOD"), (c% "dupD")]

/-- A derivative symbol of the documented form of a registered gridfunction, with an operator from `ops`
and directions 0, 1, 2. -/
structure Good (gfs ops : List Str) (d : DerivName) : Prop where
  shape : d.Shape
  stemD : 'D' ∉ d.stem
  stemU : 'U' ∉ d.stem
  base : d.base ∈ gfs
  op : d.op ∈ ops
  dirs : ∀ c ∈ d.dirs, c ∈ ['0', '1', '2']

/-- `x` is operator `op` with directions `dirs` applied to the gridfunction in memory: the stencil of the
coefficient routine (whose accuracy is the subject of C16-C19) times `invdxx` for each direction. -/
def IsDeriv (order : Nat) (mem : Mem) (inv : Char → ℝ) (gf op dirs : Str) (x : ℝ) : Prop :=
  ∃ r, fdcoeffs (op ++ dirs) order = .ok r ∧
    x = applyStencil r (fun o => mem gf (o.getD 0 0, o.getD 1 0, o.getD 2 0)) * (dirs.map inv).prod

/-- Registered gridfunctions, code parameters and free symbols of the expressions. -/
structure Reg (gfs cps free : List Str) : Prop where
  ne : gfs ≠ []
  nodup : gfs.Nodup
  clean : ∀ gf ∈ gfs, CleanGf gf
  kinds : ∀ v ∈ free, ¬ (v ∈ cps ∧ v ∈ gfs)

/-- The setting: also the variables in scope around the generated code. -/
structure Setting (gfs cps free : List Str) (ext : Env) (inv : Char → ℝ) : Prop extends Reg gfs cps free where
  /-- every free symbol that looks like a derivative is one of the documented form -/
  free : ∀ v ∈ free, v ∉ cps → v ∉ gfs → looksDeriv v = true → ∃ d, Good gfs userOps d ∧ v = d.name
  ext_inv : ∀ c ∈ ['0', '1', '2'], ext ((c% "invdxx") ++ [c]) = some (inv c)
  ext_up : ∀ n, (c% "Upwind") <+: n → ext n = none
  ext_der : ∀ n, (c% "_d") <:+: n → ext n = none
  ext_tmp : ∀ gf ∈ gfs, ∀ a b c n, fdTempName gf a b c = .ok n → ext n = none

/-! ## Operators -/

def fiveOps : List Str := userOps ++ [(c% "ddnD")]

theorem good_cases {gfs d} (h : Good gfs fiveOps d) :
    (∃ c ∈ ['0', '1', '2'], d.dirs = [c] ∧ (d.op = (c% "dD") ∨ d.op = (c% "dKOD") ∨ d.op = (c% "dupD") ∨ d.op = (c% "ddnD"))) ∨
    (∃ c1 ∈ ['0', '1', '2'], ∃ c2 ∈ ['0', '1', '2'], d.dirs = [c1, c2] ∧ d.op = (c% "dDD")) := by
  have hop := h.op
  have hl := h.shape.dirs_len
  have one : d.dirs.length = 1 → ∃ c ∈ ['0', '1', '2'], d.dirs = [c] := by
    intro h1
    match hd : d.dirs, h1 with
    | [c], _ => exact ⟨c, h.dirs c (by rw [hd]; simp), rfl⟩
  simp only [fiveOps, userOps, List.cons_append, List.nil_append, List.mem_cons, List.not_mem_nil, or_false] at hop
  rcases hop with e | e | e | e | e
  · rw [e] at hl; obtain ⟨c, hc, hd⟩ := one hl; exact .inl ⟨c, hc, hd, .inl e⟩
  · right
    rw [e] at hl
    match hd : d.dirs, hl with
    | [c1, c2], _ => exact ⟨c1, h.dirs c1 (by rw [hd]; simp), c2, h.dirs c2 (by rw [hd]; simp), rfl, e⟩
  · rw [e] at hl; obtain ⟨c, hc, hd⟩ := one hl; exact .inl ⟨c, hc, hd, .inr (.inl e)⟩
  · rw [e] at hl; obtain ⟨c, hc, hd⟩ := one hl; exact .inl ⟨c, hc, hd, .inr (.inr (.inl e))⟩
  · rw [e] at hl; obtain ⟨c, hc, hd⟩ := one hl; exact .inl ⟨c, hc, hd, .inr (.inr (.inr e))⟩

theorem c_dig {c : Char} (h : c ∈ ['0', '1', '2']) : ∃ k, k < 3 ∧ c = dig k := by
  simp only [List.mem_cons, List.not_mem_nil, or_false] at h
  rcases h with rfl | rfl | rfl
  · exact ⟨0, by omega, rfl⟩
  · exact ⟨1, by omega, rfl⟩
  · exact ⟨2, by omega, rfl⟩

theorem axisPt_sum (d : Nat) (hd : d < 3) (t : Int) : (axisPt d t).sum = t := by
  have : d = 0 ∨ d = 1 ∨ d = 2 := by omega
  rcases this with rfl | rfl | rfl <;> simp [axisPt]

theorem planePt_q (d e : Nat) (hd : d < 3) (he : e < 3) (hne : d ≠ e) (t u : Int) :
    (planePt d e t u).sum ^ 2 - ((planePt d e t u).map (· ^ 2)).sum = 2 * (t * u) := by
  have h1 : d = 0 ∨ d = 1 ∨ d = 2 := by omega
  have h2 : e = 0 ∨ e = 1 ∨ e = 2 := by omega
  rcases h1 with rfl | rfl | rfl <;> rcases h2 with rfl | rfl | rfl <;> first
    | exact absurd rfl hne
    | (simp [planePt]; ring)

theorem applyStencil_nil (r : List ℚ × List (List Int)) (f : List Int → ℝ) (h : r.2 = []) : applyStencil r f = 0 := by
  simp [applyStencil, h]

/-- The coefficient routine succeeds with a nonempty stencil. -/
theorem op_ok {gfs d} (h : Good gfs fiveOps d) (m : Nat) (hm : 1 ≤ m) :
    ∃ r, fdcoeffs d.operator (2 * m) = .ok r ∧ r.1.length = r.2.length ∧ r.2 ≠ [] ∧ ∀ x ∈ r.2, x.length = 3 := by
  suffices hs : ∃ r, fdcoeffs d.operator (2 * m) = .ok r ∧ r.1.length = r.2.length ∧ r.2 ≠ [] by
    obtain ⟨r, h1, h2, h3⟩ := hs
    exact ⟨r, h1, h2, h3, fdcoeffs_len h1⟩
  have first : ∀ (k : Nat) (hk : k < 3) (r : List ℚ × List (List Int)),
      (∀ (f : List Int → ℝ) (P : Polynomial ℝ) (x h : ℝ), h ≠ 0 → P.natDegree ≤ 2 * m →
        (∀ t : Int, f (axisPt k t) = P.eval (x + (t : ℝ) * h)) →
        applyStencil r f * h⁻¹ = (Polynomial.derivative P).eval x) → r.2 ≠ [] := by
    intro k hk r hr hnil
    have := hr (fun o => ((o.sum : Int) : ℝ)) Polynomial.X 0 1 one_ne_zero
      (by rw [Polynomial.natDegree_X]; omega) (by intro t; rw [axisPt_sum k hk]; simp)
    rw [applyStencil_nil r _ hnil] at this
    simp at this
  unfold DerivName.operator
  rcases good_cases h with ⟨c, hc, hd, ho⟩ | ⟨c1, hc1, c2, hc2, hd, ho⟩
  · obtain ⟨k, hk, rfl⟩ := c_dig hc
    rw [hd]
    rcases ho with e | e | e | e <;> rw [e]
    · obtain ⟨r, h1, h2, h3⟩ := C16_first_derivative (K := ℝ) m hm k hk
      exact ⟨r, h1, h2, first k hk r h3⟩
    · obtain ⟨r, h1, h2, _, _, h3, _⟩ := C19_kreiss_oliger (K := ℝ) m k hk
      have hl : r.2.length = 2 * m + 3 := by rw [h3]; simp
      exact ⟨r, h1, by omega, by intro e; rw [e] at hl; simp at hl⟩
    · obtain ⟨r, h1, h2, _, _, _, h3⟩ := C17_one_sided (K := ℝ) m hm k hk (c% "dupD") (-(m : Int) + 1) ((m : Int) + 1)
        (by unfold firstOpTable; simp)
      exact ⟨r, h1, h2, first k hk r h3⟩
    · obtain ⟨r, h1, h2, _, _, _, h3⟩ := C17_one_sided (K := ℝ) m hm k hk (c% "ddnD") (-(m : Int) - 1) ((m : Int) - 1)
        (by unfold firstOpTable; simp)
      exact ⟨r, h1, h2, first k hk r h3⟩
  · obtain ⟨k1, hk1, rfl⟩ := c_dig hc1
    obtain ⟨k2, hk2, rfl⟩ := c_dig hc2
    rw [hd, ho]
    by_cases hne : k1 = k2
    · subst hne
      obtain ⟨r, h1, h2, h3⟩ := C16_second_derivative (K := ℝ) m hm k1 hk1
      refine ⟨r, h1, h2, ?_⟩
      intro hnil
      have := h3 (fun o => ((o.sum : Int) : ℝ) ^ 2) (Polynomial.X ^ 2) 0 1 one_ne_zero
        (by rw [Polynomial.natDegree_X_pow]; omega) (by intro t; rw [axisPt_sum k1 hk1]; simp)
      rw [applyStencil_nil r _ hnil] at this
      simp at this
      norm_num at this
    · obtain ⟨r, h1, h2, _, h3⟩ := C18_mixed_derivative (K := ℝ) m hm k1 k2 hk1 hk2 hne
      refine ⟨r, h1, h2, ?_⟩
      intro hnil
      have := h3 (fun o => ((o.sum ^ 2 - (o.map (· ^ 2)).sum : Int) : ℝ) / 2)
        (fun a b => if a = 1 then (if b = 1 then 1 else 0) else 0) 0 0 1 1 one_ne_zero one_ne_zero (by
          intro t u
          rw [planePt_q k1 k2 hk1 hk2 hne]
          simp only [ite_mul, zero_mul]
          simp [Finset.sum_ite_eq', show 1 < 2 * m + 1 by omega])
      rw [applyStencil_nil r _ hnil] at this
      simp only [ite_mul, zero_mul] at this
      simp [Finset.sum_ite_eq', show 1 < 2 * m + 1 by omega] at this

/-! ## Names -/

theorem us_infix {w A T : Str} (h : ('_' :: w) <:+: (A ++ '_' :: T)) (hw : '_' ∉ w) (hT : '_' ∉ T) :
    ('_' :: w) <:+: A ∨ w <+: T := by
  obtain ⟨p, q, e⟩ := h
  have e' : p ++ ('_' :: (w ++ q)) = A ++ '_' :: T := by rw [← e]; simp
  rcases List.append_eq_append_iff.mp e' with ⟨m, e1, e2⟩ | ⟨m, e1, e2⟩
  · cases m with
    | nil =>
      simp only [List.nil_append, List.cons.injEq, true_and] at e2
      exact .inr ⟨q, e2⟩
    | cons x m =>
      simp only [List.cons_append, List.cons.injEq] at e2
      obtain ⟨rfl, e2⟩ := e2
      rcases List.append_eq_append_iff.mp e2 with ⟨k, e3, e4⟩ | ⟨k, e3, e4⟩
      · exact .inl ⟨p, k, by rw [e1, e3]; simp⟩
      · cases k with
        | nil => exact .inl ⟨p, [], by rw [e1, e3]; simp⟩
        | cons y k =>
          simp only [List.cons_append, List.cons.injEq] at e4
          exact absurd (by rw [e3, ← e4.1]; simp) hw
  · cases m with
    | nil =>
      simp only [List.nil_append, List.cons.injEq, true_and] at e2
      exact .inr ⟨q, e2.symm⟩
    | cons x m =>
      simp only [List.cons_append, List.cons.injEq] at e2
      exact absurd (by rw [e2.2]; simp) hT

/-- The part of the name before the last underscore. -/
def DerivName.front (d : DerivName) : Str := d.stem ++ d.ud
/-- The part after it. -/
def DerivName.tail (d : DerivName) : Str := d.op ++ d.comps ++ d.dirs

theorem name_eq (d : DerivName) : d.name = d.front ++ '_' :: d.tail := rfl

theorem tail_no_us {d : DerivName} (h : d.Shape) : '_' ∉ d.tail := by
  unfold DerivName.tail
  simp only [List.mem_append, not_or]
  exact ⟨⟨h.op_us, digits_no h.comps (by decide)⟩, digits_no h.dirs (by decide)⟩

theorem front_der {gfs ops d} (h : Good gfs ops d) (hc : ∀ gf ∈ gfs, CleanGf gf) (w : Str)
    (hw : (c% "_d") <+: w) : ¬ w <:+: d.front := by
  intro hi
  have hb := (hc _ h.base).der
  apply hb
  refine hw.isInfix.trans (hi.trans ?_)
  exact ⟨[], d.comps, by simp [DerivName.base, DerivName.front]⟩

theorem name_up {gfs ops d} (h : Good gfs ops d) (hc : ∀ gf ∈ gfs, CleanGf gf) : ¬ (c% "Upwind") <+: d.name := by
  rintro ⟨q, e⟩
  rw [name_eq] at e
  rcases List.append_eq_append_iff.mp e with ⟨m, e1, e2⟩ | ⟨m, e1, e2⟩
  · refine (hc _ h.base).up ⟨m ++ d.comps, ?_⟩
    show _ = d.stem ++ d.ud ++ d.comps
    have : d.stem ++ d.ud = (c% "Upwind") ++ m := e1
    rw [this]; simp
  · cases m with
    | nil =>
      refine (hc _ h.base).up ⟨d.comps, ?_⟩
      show _ = d.stem ++ d.ud ++ d.comps
      have : (c% "Upwind") = d.stem ++ d.ud := by simpa [DerivName.front] using e1
      rw [this]
    | cons x m =>
      simp only [List.cons_append, List.cons.injEq] at e2
      have : '_' ∈ (c% "Upwind") := by rw [e1, e2.1]; simp
      exact absurd this (by decide)

theorem op_d {d gfs} (h : Good gfs fiveOps d) : ∃ t, d.op = 'd' :: t := by
  rcases good_cases h with ⟨c, hc, hd, ho⟩ | ⟨c1, hc1, c2, hc2, hd, ho⟩
  · rcases ho with e | e | e | e <;> exact ⟨_, e⟩
  · exact ⟨_, ho⟩

theorem name_der {gfs d} (h : Good gfs fiveOps d) : (c% "_d") <:+: d.name := by
  obtain ⟨t, ht⟩ := op_d h
  exact ⟨d.front, t ++ d.comps ++ d.dirs, by simp [name_eq, DerivName.tail, ht]⟩

theorem name_dup_iff {gfs d} (h : Good gfs fiveOps d) (hc : ∀ gf ∈ gfs, CleanGf gf) :
    containsSub (c% "_dupD") d.name = true ↔ d.op = (c% "dupD") := by
  rw [containsSub_iff, name_eq]
  constructor
  · intro hi
    rcases us_infix hi (by decide) (tail_no_us h.shape) with h1 | h1
    · exact absurd h1 (front_der h hc _ (by decide))
    · unfold DerivName.tail at h1
      rcases good_cases h with ⟨c, _, hd, ho⟩ | ⟨c1, _, c2, _, hd, ho⟩
      · rcases ho with e | e | e | e
        · rw [e] at h1; simp at h1
        · rw [e] at h1; simp at h1
        · exact e
        · rw [e] at h1; simp at h1
      · rw [ho] at h1; simp at h1
  · intro e
    exact ⟨d.front, d.comps ++ d.dirs, by simp [DerivName.tail, e]⟩

theorem name_looks {gfs d} (h : Good gfs userOps d) : looksDeriv d.name = true := by
  have hin : ∀ w r, d.tail = w ++ r → ('_' :: w) <:+: d.name := by
    intro w r e
    exact ⟨d.front, r, by rw [name_eq, e]; simp⟩
  have hop := h.op
  simp only [userOps, List.mem_cons, List.not_mem_nil, or_false] at hop
  unfold looksDeriv
  simp only [Bool.or_eq_true, containsSub_iff]
  rcases hop with e | e | e | e
  · exact .inl (.inl (.inl (hin (c% "dD") (d.comps ++ d.dirs) (by simp [DerivName.tail, e]))))
  · exact .inl (.inl (.inl (hin (c% "dD") ('D' :: (d.comps ++ d.dirs)) (by simp [DerivName.tail, e]))))
  · exact .inl (.inl (.inr (hin (c% "dKOD") (d.comps ++ d.dirs) (by simp [DerivName.tail, e]))))
  · exact .inl (.inr (hin (c% "dupD") (d.comps ++ d.dirs) (by simp [DerivName.tail, e])))

/-- The down-winded partner of an upwinded symbol. -/
def DerivName.ddn (d : DerivName) : DerivName := { d with op := (c% "ddnD") }

theorem ddn_good {gfs d} (h : Good gfs fiveOps d) (e : d.op = (c% "dupD")) : Good gfs fiveOps d.ddn where
  shape := {
    ud := h.shape.ud, op_us := by simp [DerivName.ddn], op_U := by simp [DerivName.ddn],
    op_end := ⟨(c% "ddn"), rfl⟩, comps := h.shape.comps, comps_len := h.shape.comps_len,
    dirs := h.shape.dirs
    dirs_len := by
      have := h.shape.dirs_len
      rw [e] at this
      exact this }
  stemD := h.stemD
  stemU := h.stemU
  base := h.base
  op := by simp [DerivName.ddn, fiveOps]
  dirs := h.dirs

theorem toDdn_name {gfs d} (h : Good gfs fiveOps d) (hc : ∀ gf ∈ gfs, CleanGf gf) (e : d.op = (c% "dupD")) :
    toDdn d.name = d.ddn.name := by
  have hn : d.name = d.front ++ ((c% "_dupD") ++ (d.comps ++ d.dirs)) := by
    simp [name_eq, DerivName.tail, e]
  have hn2 : d.ddn.name = d.front ++ ((c% "_ddnD") ++ (d.comps ++ d.dirs)) := by
    simp [name_eq, DerivName.tail, DerivName.ddn, DerivName.front]
  have hdig : '_' ∉ d.comps ++ d.dirs := by
    simp only [List.mem_append, not_or]
    exact ⟨digits_no h.shape.comps (by decide), digits_no h.shape.dirs (by decide)⟩
  unfold toDdn
  rw [hn, hn2]
  apply replaceAll_one _ _ _ _ (by decide)
  · intro i hi hp
    rw [List.drop_append_of_le_length (by omega)] at hp
    have hsuf : d.front.drop i <:+ d.front := List.drop_suffix _ _
    have hne : d.front.drop i ≠ [] := by
      intro h0
      have := congrArg List.length h0
      simp at this; omega
    obtain ⟨q, e1⟩ := hp
    have key := front_der h hc (c% "_dupD") (by decide)
    rcases List.append_eq_append_iff.mp e1 with ⟨m, e2, e3⟩ | ⟨m, e2, e3⟩
    · apply key
      refine List.IsInfix.trans ?_ hsuf.isInfix
      rw [e2]
      exact (List.prefix_append _ _).isInfix
    · cases m with
      | nil =>
        apply key
        refine List.IsInfix.trans ?_ hsuf.isInfix
        rw [List.append_nil] at e2
        rw [← e2]
      | cons x m =>
        simp only [List.cons_append, List.cons.injEq] at e3
        cases hfr : d.front.drop i with
        | nil => exact hne hfr
        | cons y l =>
          rw [hfr, ← e3.1] at e2
          simp only [List.cons_append, List.cons.injEq] at e2
          have : '_' ∈ (c% "dupD") := by rw [e2.2]; simp
          exact absurd this (by decide)
  · rintro ⟨p, q, e2⟩
    exact hdig (by rw [← e2]; simp)

theorem ddn_name_inj {gfs d e} (hd : Good gfs fiveOps d) (he : Good gfs fiveOps e) (h1 : d.op = (c% "dupD"))
    (h2 : e.op = (c% "dupD")) (h : d.ddn.name = e.ddn.name) : d.name = e.name := by
  have r1 := rfind_append d.ddn.front d.ddn.tail (tail_no_us (ddn_good hd h1).shape)
  have r2 := rfind_append e.ddn.front e.ddn.tail (tail_no_us (ddn_good he h2).shape)
  rw [← name_eq] at r1 r2
  rw [h, r2] at r1
  have hlen : d.ddn.front.length = e.ddn.front.length := (Option.some.inj r1).symm
  rw [name_eq, name_eq] at h
  obtain ⟨e1, e2⟩ := List.append_inj h hlen
  have e3 : d.front = e.front := e1
  simp only [List.cons.injEq, true_and, DerivName.tail, DerivName.ddn, List.append_assoc,
    List.append_cancel_left_eq] at e2
  rw [name_eq, name_eq, e3]
  simp only [DerivName.tail, h1, h2, List.append_assoc, e2]

theorem user_ne_ddn {gfs d e} (hd : Good gfs userOps d) (he : Good gfs fiveOps e) (h2 : e.op = (c% "dupD")) :
    d.name ≠ e.ddn.name := by
  intro h
  have hg := ddn_good he h2
  have s1 := C22_split d hd.shape hd.stemD hd.stemU
  have s2 := C22_split e.ddn hg.shape hg.stemD hg.stemU
  rw [h, s2] at s1
  have : e.ddn.operator = d.operator := (Prod.mk.inj (Except.ok.inj s1)).2
  simp only [DerivName.operator, DerivName.ddn] at this
  have hop := hd.op
  simp only [userOps, List.mem_cons, List.not_mem_nil, or_false] at hop
  rcases hop with x | x | x | x <;> rw [x] at this <;> simp at this

theorem user_five {gfs d} (h : Good gfs userOps d) : Good gfs fiveOps d :=
  { h with op := by unfold fiveOps; exact List.mem_append_left _ h.op }

/-! ## Characters of generated suffixes -/

theorem mem_joinWith {c sep : Char} {ps : List Str} (h : c ∈ joinWith sep ps) : c = sep ∨ ∃ p ∈ ps, c ∈ p := by
  induction ps with
  | nil => simp [joinWith] at h
  | cons p ps ih =>
    cases ps with
    | nil => exact .inr ⟨p, by simp, h⟩
    | cons q qs =>
      rw [joinWith] at h
      rcases List.mem_append.mp h with h | h
      · exact .inr ⟨p, by simp, h⟩
      · rcases List.mem_cons.mp h with h | h
        · exact .inl h
        · rcases ih h with h | ⟨r, hr, h⟩
          · exact .inl h
          · exact .inr ⟨r, by simp [List.mem_cons.mp hr], h⟩

theorem mem_sufStr {c : Char} {a : Int × Int × Int} (h : c ∈ sufStr a) :
    c ∈ ['_', 'i', 'm', 'p'] ∨ c.isDigit = true := by
  unfold sufStr at h
  split at h
  · simp at h
  · rcases List.mem_cons.mp h with rfl | h
    · left; simp
    · rcases mem_joinWith h with rfl | ⟨p, hp, hcp⟩
      · left; simp
      · have : ∃ k : Char, (k.isDigit = true) ∧ ∃ o, p ∈ offSuffix k o := by
          simp only [sufs, List.mem_append] at hp
          rcases hp with (h | h) | h
          · exact ⟨'0', by decide, _, h⟩
          · exact ⟨'1', by decide, _, h⟩
          · exact ⟨'2', by decide, _, h⟩
        obtain ⟨k, hk, o, ho⟩ := this
        obtain ⟨s, n, hs, rfl⟩ := offSuffix_mem ho
        simp only [List.mem_cons] at hcp
        rcases hcp with rfl | rfl | rfl | h
        · left; simp
        · right; exact hk
        · left; rcases hs with rfl | rfl <;> simp
        · right; exact isDigit_of_mem_dec h

theorem tmp_der {gf : Str} (hc : CleanGf gf) (a) : ¬ (c% "_d") <:+: gf ++ sufStr a := by
  rintro ⟨p, q, e⟩
  have e' : (p ++ (c% "_d")) ++ q = gf ++ sufStr a := e
  rcases List.append_eq_append_iff.mp e' with ⟨m, e1, e2⟩ | ⟨m, e1, e2⟩
  · exact hc.der ⟨p, m, e1.symm⟩
  · rcases List.eq_nil_or_concat m with rfl | ⟨m', x, rfl⟩
    · exact hc.der ⟨p, [], by simpa using e1⟩
    · have hx : x = 'd' := by
        have := congrArg List.getLast? e1
        simp at this
        exact this.symm
      have : 'd' ∈ sufStr a := by rw [e2, hx]; simp
      rcases mem_sufStr this with h | h
      · exact absurd h (by decide)
      · exact absurd h (by decide)

theorem tmp_up {gf : Str} (hc : CleanGf gf) (a) : ¬ (c% "Upwind") <+: gf ++ sufStr a := by
  rintro ⟨q, e⟩
  rcases List.append_eq_append_iff.mp e with ⟨m, e1, e2⟩ | ⟨m, e1, e2⟩
  · exact hc.up ⟨m, e1.symm⟩
  · rcases List.eq_nil_or_concat m with rfl | ⟨m', x, rfl⟩
    · exact hc.up ⟨[], by simpa using e1⟩
    · have hx : x = 'd' := by
        have := congrArg List.getLast? e1
        simp at this
        exact this.symm
      have : 'd' ∈ sufStr a := by rw [e2, hx]; simp
      rcases mem_sufStr this with h | h
      · exact absurd h (by decide)
      · exact absurd h (by decide)

/-! ## The statements -/

/-- Coefficients and stencil of a good symbol. -/
noncomputable def coefAt (m : Nat) (op : Str) : List ℚ × List (List Int) :=
  match fdcoeffs op (2 * m) with
  | .ok r => r
  | .error _ => ([], [])

noncomputable def coefOf (m : Nat) (d : DerivName) : List ℚ × List (List Int) := coefAt m d.operator

theorem coefOf_ok {gfs d} (h : Good gfs fiveOps d) (m : Nat) (hm : 1 ≤ m) :
    fdcoeffs d.operator (2 * m) = .ok (coefOf m d) ∧ (coefOf m d).1.length = (coefOf m d).2.length ∧
      (coefOf m d).2 ≠ [] ∧ ∀ x ∈ (coefOf m d).2, x.length = 3 := by
  obtain ⟨r, h1, h2⟩ := op_ok h m hm
  have : coefOf m d = r := by simp [coefOf, coefAt, h1]
  rw [this]; exact ⟨h1, h2⟩

def upw (d : DerivName) : Bool := d.op = (c% "dupD") || d.op = (c% "ddnD")

def fdLhs (d : DerivName) : Str := if upw d then (c% "UpwindAlgInput") ++ d.name else d.name

noncomputable def fdOf (m : Nat) (d : DerivName) : Stmt :=
  .fd (fdLhs d) (((coefOf m d).1.zip (coefOf m d).2).map fun ct => (ct.1, d.base ++ sufStr (pt3 ct.2)))
    (d.dirs.map fun c => (c% "invdxx") ++ [c])

theorem stencilVar_eq (gf : Str) (off : List Int) (h : off.length = 3) :
    stencilVar gf off = .ok (gf ++ sufStr (pt3 off)) := by
  match off, h with
  | [a, b, c], _ =>
    have h1 : fdTempName (c% "FDPROTO") a b c = .ok ((c% "FDPROTO") ++ sufStr (a, b, c)) :=
      fdTempName_eq (c% "FDPROTO") (a, b, c) (by decide)
    have h2 : replaceAll (c% "FDPROTO") gf ((c% "FDPROTO") ++ sufStr (a, b, c)) = gf ++ sufStr (a, b, c) := by
      have := replaceAll_one (c% "FDPROTO") gf [] (sufStr (a, b, c)) (by decide) (by simp) (by
        rintro ⟨p, q, e⟩
        have : 'F' ∈ sufStr (a, b, c) := by rw [← e]; simp
        rcases mem_sufStr this with h | h
        · exact absurd h (by decide)
        · exact absurd h (by decide))
      simpa using this
    simp only [stencilVar, h1, liftName, bind, Except.bind, h2]
    rfl

theorem ops_table (op dirs : Str) (h : (∃ c ∈ ['0', '1', '2'], dirs = [c] ∧ (op = (c% "dD") ∨ op = (c% "dKOD") ∨ op = (c% "dupD") ∨ op = (c% "ddnD"))) ∨
    (∃ c1 ∈ ['0', '1', '2'], ∃ c2 ∈ ['0', '1', '2'], dirs = [c1, c2] ∧ op = (c% "dDD"))) :
    invFactors (op ++ dirs) = .ok (dirs.map fun c => (c% "invdxx") ++ [c]) ∧
    (containsSub (c% "_dupD") ((c% "FDPROTO_") ++ (op ++ dirs)) || containsSub (c% "_ddnD") ((c% "FDPROTO_") ++ (op ++ dirs))) =
      (decide (op = (c% "dupD")) || decide (op = (c% "ddnD"))) ∧
    containsSub (c% "dupD") (op ++ dirs) = decide (op = (c% "dupD")) := by
  rcases h with ⟨c, hc, rfl, ho⟩ | ⟨c1, hc1, c2, hc2, rfl, rfl⟩
  · simp only [List.mem_cons, List.not_mem_nil, or_false] at hc
    rcases hc with rfl | rfl | rfl <;> rcases ho with rfl | rfl | rfl | rfl <;> exact ⟨rfl, by decide, by decide⟩
  · simp only [List.mem_cons, List.not_mem_nil, or_false] at hc1 hc2
    rcases hc1 with rfl | rfl | rfl <;> rcases hc2 with rfl | rfl | rfl <;> exact ⟨rfl, by decide, by decide⟩

theorem fdStmt_eq {gfs d} (h : Good gfs fiveOps d) (m : Nat) (hm : 1 ≤ m) :
    fdStmt (2 * m) d.name d.base d.operator = .ok (fdOf m d) := by
  obtain ⟨h1, h2, h3, h4⟩ := coefOf_ok h m hm
  obtain ⟨t1, t2, _⟩ := ops_table d.op d.dirs (good_cases h)
  have hterms : ((coefOf m d).1.zip (coefOf m d).2).mapM (fun ct => (do
      let n ← stencilVar d.base ct.2
      .ok (ct.1, n) : Except GenErr (ℚ × Str))) =
      .ok (((coefOf m d).1.zip (coefOf m d).2).map fun ct => (ct.1, d.base ++ sufStr (pt3 ct.2))) := by
    apply mapM_ok
    intro ct hct
    rw [stencilVar_eq d.base ct.2 (h4 _ (List.of_mem_zip hct).2)]
    rfl
  unfold fdStmt
  rw [h1]
  simp only [liftFD, bind, Except.bind]
  have hterms' := hterms
  simp only [bind, Except.bind] at hterms'
  rw [hterms']
  simp only [DerivName.operator] at *
  rw [t1]
  simp only [t2]
  rfl

/-! ## Values -/

theorem evalSum_map (env : Env) (L : List (ℚ × List Int)) (nm : List Int → Str) (f : List Int → ℝ)
    (h : ∀ ct ∈ L, env (nm ct.2) = some (f ct.2)) :
    evalSum env (L.map fun ct => (ct.1, nm ct.2)) = some ((L.map fun ct => ((ct.1 : ℚ) : ℝ) * f ct.2).sum) := by
  induction L with
  | nil => rfl
  | cons ct L ih =>
    simp only [List.map_cons, evalSum, bind, Option.bind, List.sum_cons]
    rw [h ct (by simp), ih (fun x hx => h x (by simp [hx]))]

theorem evalProd_map (env : Env) (L : Str) (nm : Char → Str) (f : Char → ℝ)
    (h : ∀ c ∈ L, env (nm c) = some (f c)) :
    evalProd env (L.map nm) = some (L.map f).prod := by
  induction L with
  | nil => rfl
  | cons c L ih =>
    simp only [List.map_cons, evalProd, bind, Option.bind, List.prod_cons]
    rw [h c (by simp), ih (fun x hx => h x (by simp [hx]))]

theorem exec_batch' (mem : Mem) (S : List Stmt) (env : Env)
    (hv : ∀ s ∈ S, ∃ x, s.eval mem env = some x) (hnd : (S.map Stmt.lhs).Nodup)
    (hfresh : ∀ s ∈ S, env s.lhs = none) :
    ∃ env', exec mem S env = some env' ∧ Ext env env' ∧ (∀ s ∈ S, env' s.lhs = s.eval mem env) ∧
      ∀ n, n ∉ S.map Stmt.lhs → env' n = env n := by
  obtain ⟨env', h1, h2, h3, h4⟩ := exec_batch mem (fun s => (s.eval mem env).getD 0) S env
    (fun s hs => by obtain ⟨x, hx⟩ := hv s hs; simp [hx]) hnd hfresh
  refine ⟨env', h1, h2, ?_, h4⟩
  intro s hs
  obtain ⟨x, hx⟩ := hv s hs
  rw [h3 s hs, hx]; rfl

theorem exists_preimage {α β} (f : α → β) (P : α → Prop) (L : List β) (h : ∀ b ∈ L, ∃ a, P a ∧ b = f a) :
    ∃ as : List α, L = as.map f ∧ ∀ a ∈ as, P a := by
  induction L with
  | nil => exact ⟨[], rfl, by simp⟩
  | cons b L ih =>
    obtain ⟨a, ha, e⟩ := h b (by simp)
    obtain ⟨as, e2, h2⟩ := ih (fun x hx => h x (by simp [hx]))
    exact ⟨a :: as, by rw [List.map_cons, ← e, ← e2], by
      intro x hx
      rcases List.mem_cons.mp hx with rfl | hx
      · exact ha
      · exact h2 x hx⟩

/-- Extraction of the derivative symbols. -/
theorem extract_spec {gfs cps free : List Str} {ext inv} (H : Setting gfs cps free ext inv) :
    ∃ ds : List DerivName, extractDerivs gfs cps free = .ok (ds.map DerivName.name) ∧
      (∀ d ∈ ds, Good gfs fiveOps d) ∧ (ds.map DerivName.name).Nodup ∧
      (∀ d, Good gfs userOps d → d.name ∈ free → d.name ∉ cps → d.name ∈ ds.map DerivName.name) ∧
      (∀ d ∈ ds, d.op = (c% "dupD") → d.ddn.name ∈ ds.map DerivName.name) ∧
      (∀ d ∈ ds, ∃ e, Good gfs userOps e ∧ e.name ∈ free ∧ e.base = d.base) := by
  classical
  let kind : Str → SymKind := fun v => if v ∈ cps then .cparameter else if v ∈ gfs then .gridfunction else .other
  have hk : free.mapM (symKind gfs cps) = .ok (free.map kind) := by
    apply mapM_ok
    intro v hv
    unfold symKind
    rw [if_neg (H.kinds v hv)]
    simp only [kind]
    split
    · rfl
    · split <;> rfl
  have hzip : ((free.zip (free.map kind)).filter fun vk => vk.2 = .other ∧ looksDeriv vk.1 = true).map (·.1) =
      free.filter fun v => kind v = .other ∧ looksDeriv v = true := by
    · have : ∀ l : List Str, ((l.zip (l.map kind)).filter fun vk => vk.2 = .other ∧ looksDeriv vk.1 = true).map (·.1) =
          l.filter fun v => kind v = .other ∧ looksDeriv v = true := by
        intro l
        induction l with
        | nil => rfl
        | cons v l ih =>
          simp only [List.map_cons, List.zip_cons_cons, List.filter_cons]
          split <;> simp_all
      exact this _
  let l := superfastUniq (free.filter fun v => kind v = .other ∧ looksDeriv v = true)
  have hl := C29_superfast_uniq (free.filter fun v => kind v = .other ∧ looksDeriv v = true)
  have hlmem : ∀ v, v ∈ l ↔ v ∈ free ∧ v ∉ cps ∧ v ∉ gfs ∧ looksDeriv v = true := by
    intro v
    rw [hl.mem v, List.mem_filter]
    simp only [decide_eq_true_eq, kind]
    constructor
    · rintro ⟨h1, h2, h3⟩
      refine ⟨h1, ?_, ?_, h3⟩
      · intro hc; rw [if_pos hc] at h2; cases h2
      · intro hc
        by_cases h4 : v ∈ cps
        · rw [if_pos h4] at h2; cases h2
        · rw [if_neg h4, if_pos hc] at h2; cases h2
    · rintro ⟨h1, h2, h3, h4⟩
      exact ⟨h1, by rw [if_neg h2, if_neg h3], h4⟩
  have hlgood : ∀ v ∈ l, ∃ d, Good gfs userOps d ∧ v = d.name := by
    intro v hv
    obtain ⟨h1, h2, h3, h4⟩ := (hlmem v).mp hv
    exact H.free v h1 h2 h3 h4
  let ex := (l.filter fun v => containsSub (c% "_dupD") v).map toDdn
  have hexgood : ∀ v ∈ ex, ∃ d, (Good gfs userOps d ∧ d.op = (c% "dupD") ∧ d.name ∈ l) ∧ v = d.ddn.name := by
    intro v hv
    obtain ⟨u, hu, rfl⟩ := List.mem_map.mp hv
    obtain ⟨hul, hud⟩ := List.mem_filter.mp hu
    obtain ⟨d, hd, rfl⟩ := hlgood u hul
    have hop := (name_dup_iff (user_five hd) H.clean).mp hud
    exact ⟨d, ⟨hd, hop, hul⟩, toDdn_name (user_five hd) H.clean hop⟩
  have hall : ∀ v ∈ sortedStr (l ++ ex), ∃ d, Good gfs fiveOps d ∧ v = d.name := by
    intro v hv
    rcases List.mem_append.mp ((mem_sortedStr _ _).mp hv) with h | h
    · obtain ⟨d, hd, e⟩ := hlgood v h
      exact ⟨d, user_five hd, e⟩
    · obtain ⟨d, ⟨hd, hop, _⟩, e⟩ := hexgood v h
      exact ⟨d.ddn, ddn_good (user_five hd) hop, e⟩
  obtain ⟨ds, hds, hgood⟩ := exists_preimage DerivName.name (Good gfs fiveOps) _ hall
  refine ⟨ds, ?_, hgood, ?_, ?_, ?_, ?_⟩
  · unfold extractDerivs
    rw [hk]
    simp only [bind, Except.bind]
    rw [hzip, ← hds]
  · rw [← hds, (sortedStr_perm _).nodup_iff, List.nodup_append]
    refine ⟨hl.nodup, ?_, ?_⟩
    · refine List.Nodup.map_on ?_ (hl.nodup.filter _)
      intro u hu w hw huw
      obtain ⟨hul, hud⟩ := List.mem_filter.mp hu
      obtain ⟨hwl, hwd⟩ := List.mem_filter.mp hw
      obtain ⟨d, hd, rfl⟩ := hlgood u hul
      obtain ⟨e, he, rfl⟩ := hlgood w hwl
      have o1 := (name_dup_iff (user_five hd) H.clean).mp hud
      have o2 := (name_dup_iff (user_five he) H.clean).mp hwd
      rw [toDdn_name (user_five hd) H.clean o1, toDdn_name (user_five he) H.clean o2] at huw
      exact ddn_name_inj (user_five hd) (user_five he) o1 o2 huw
    · intro a ha b hb hab
      obtain ⟨d, hd, rfl⟩ := hlgood a ha
      obtain ⟨e, ⟨he, hop, _⟩, rfl⟩ := hexgood b hb
      exact user_ne_ddn hd (user_five he) hop hab
  · intro d hd hfree hcp
    rw [← hds, mem_sortedStr]
    apply List.mem_append_left
    rw [hlmem]
    refine ⟨hfree, hcp, ?_, name_looks hd⟩
    intro hg
    exact (H.clean _ hg).der (name_der (user_five hd))
  · intro d hd hop
    rw [← hds, mem_sortedStr]
    have hmem : d.name ∈ sortedStr (l ++ ex) := by rw [hds]; exact List.mem_map.mpr ⟨d, hd, rfl⟩
    apply List.mem_append_right
    rcases List.mem_append.mp ((mem_sortedStr _ _).mp hmem) with h | h
    · rw [← toDdn_name (hgood d hd) H.clean hop]
      exact List.mem_map.mpr ⟨d.name, List.mem_filter.mpr ⟨h, (name_dup_iff (hgood d hd) H.clean).mpr hop⟩, rfl⟩
    · obtain ⟨e, ⟨he, heop, _⟩, heq⟩ := hexgood _ h
      have hcon := (name_dup_iff (hgood d hd) H.clean).mpr hop
      rw [heq, name_dup_iff (ddn_good (user_five he) heop) H.clean] at hcon
      exact absurd hcon (by simp [DerivName.ddn])
  · intro d hd
    have hmem : d.name ∈ sortedStr (l ++ ex) := by rw [hds]; exact List.mem_map.mpr ⟨d, hd, rfl⟩
    have key : ∀ e : DerivName, Good gfs fiveOps e → d.name = e.name → e.base = d.base := by
      intro e he heq
      have s1 := C22_split d (hgood d hd).shape (hgood d hd).stemD (hgood d hd).stemU
      rw [heq, C22_split e he.shape he.stemD he.stemU] at s1
      exact (Prod.mk.inj (Except.ok.inj s1)).1
    rcases List.mem_append.mp ((mem_sortedStr _ _).mp hmem) with h | h
    · obtain ⟨e, he, heq⟩ := hlgood _ h
      exact ⟨e, he, heq ▸ ((hlmem _).mp h).1, key e (user_five he) heq⟩
    · obtain ⟨e, ⟨he, heop, hel⟩, heq⟩ := hexgood _ h
      exact ⟨e, he, ((hlmem _).mp hel).1, key e.ddn (ddn_good (user_five he) heop) heq⟩

theorem mapM_map_ok {α β γ ε} (f : β → Except ε γ) (h : α → β) (g : α → γ) (l : List α)
    (H : ∀ a ∈ l, f (h a) = .ok (g a)) : (l.map h).mapM f = .ok (l.map g) := by
  induction l with
  | nil => rfl
  | cons a l ih =>
    rw [List.map_cons, List.mapM_cons, H a (by simp), ih (fun x hx => H x (by simp [hx]))]
    rfl

/-- Direction number of a symbol with one direction. -/
def dirNo (d : DerivName) : Nat := (d.dirs.headD '0').toNat - '0'.toNat

theorem upDir_eq {gfs d} (h : Good gfs fiveOps d) (e : d.op = (c% "dupD")) :
    upDir d.operator = .ok (dirNo d) ∧ dirNo d < 3 ∧ d.dirs = [dig (dirNo d)] := by
  unfold DerivName.operator dirNo
  rcases good_cases h with ⟨c, hc, hd, ho⟩ | ⟨c1, _, c2, _, hd, ho⟩
  · rw [hd, e]
    simp only [List.mem_cons, List.not_mem_nil, or_false] at hc
    rcases hc with rfl | rfl | rfl <;> exact ⟨rfl, by decide, by decide⟩
  · rw [e] at ho; simp at ho

theorem is_dup {gfs d} (h : Good gfs fiveOps d) :
    containsSub (c% "dupD") d.operator = decide (d.op = (c% "dupD")) ∧
    (d.op = (c% "dupD") → d.operator.length = 5) := by
  refine ⟨(ops_table d.op d.dirs (good_cases h)).2.2, ?_⟩
  intro e
  have := (upDir_eq h e).2.2
  simp [DerivName.operator, e, this]

theorem upwindDirs_spec {gfs} (control : Option (List Str)) (ds : List DerivName)
    (hg : ∀ d ∈ ds, Good gfs fiveOps d) :
    ∃ D, upwindDirs control (ds.map DerivName.operator) = .ok D ∧ D.Nodup ∧ (control = none → D = []) ∧
      (control ≠ none → ∀ d ∈ ds, d.op = (c% "dupD") → dirNo d ∈ D) ∧ ∀ k ∈ D, k < 3 ∧ ∃ d ∈ ds, d.op = (c% "dupD") ∧ dirNo d = k := by
  cases control with
  | none => exact ⟨[], rfl, by simp, by simp, by simp, by simp⟩
  | some cs =>
    have hf : (ds.map DerivName.operator).filter (fun op => containsSub (c% "dupD") op) =
        (ds.filter fun d => d.op = (c% "dupD")).map DerivName.operator := by
      rw [List.filter_map]
      congr 1
      apply List.filter_congr
      intro d hd
      exact (is_dup (hg d hd)).1
    have hm := mapM_map_ok upDir DerivName.operator dirNo (ds.filter fun d => d.op = (c% "dupD")) (by
      intro d hd
      obtain ⟨h1, h2⟩ := List.mem_filter.mp hd
      exact (upDir_eq (hg d h1) (by simpa using h2)).1)
    refine ⟨(List.range 10).filter fun k => k ∈ (ds.filter fun d => d.op = (c% "dupD")).map dirNo, ?_, ?_, by simp, ?_, ?_⟩
    · simp only [upwindDirs]
      rw [hf, hm]
      rfl
    · exact List.nodup_range.filter _
    · intro _ d hd he
      have := (upDir_eq (hg d hd) he).2.1
      simp only [List.mem_filter, List.mem_range, List.mem_map, decide_eq_true_eq]
      exact ⟨by omega, d, ⟨hd, he⟩, rfl⟩
    · intro k hk
      simp only [List.mem_filter, List.mem_range, List.mem_map, decide_eq_true_eq] at hk
      obtain ⟨_, d, ⟨hd, he⟩, rfl⟩ := hk
      exact ⟨(upDir_eq (hg d hd) he).2.1, d, hd, he, rfl⟩

/-! ## The whole program -/

def readStmt (r : Read) : Stmt := .read r.var r.gf r.pt

def copyOf (cs : List Str) (k : Nat) : Stmt := .copy ((c% "UpwindControlVectorU") ++ dec k) (cs.getD k [])
def algOf (k : Nat) : Stmt := .alg ((c% "Upwind") ++ dec k) ((c% "UpwindControlVectorU") ++ dec k)
def blendOf (D : List Nat) (d : DerivName) : Stmt :=
  .blend d.name (if dirNo d ∈ D then some ((c% "Upwind") ++ dec (dirNo d)) else none)
    ((c% "UpwindAlgInput") ++ d.name) ((c% "UpwindAlgInput") ++ d.ddn.name)

theorem genFD_parts {gfs cps free : List Str} (H : Reg gfs cps free) (m : Nat) (hm : 1 ≤ m)
    (style : Str) (hs : style = (c% "210") ∨ style = (c% "012")) (control : Option (List Str))
    (hcon : ∀ cs, control = some cs → cs.length = 3) (ds : List DerivName)
    (hex : extractDerivs gfs cps free = .ok (ds.map DerivName.name)) (hg : ∀ d ∈ ds, Good gfs fiveOps d) :
    ∃ rs D, genFD gfs cps style (2 * m) control free = .ok (rs.map readStmt ++
        (if rs = [] then [] else sortStmts (ds.map (fdOf m) ++ D.map (copyOf (control.getD [])))) ++ D.map algOf ++
        (ds.filter fun d => d.op = (c% "dupD")).map (blendOf D)) ∧
      (∀ gf pt, (∃ r ∈ rs, r.gf = gf ∧ r.pt = pt) ↔
        gf ∈ gfs ∧ Needed (ds.map fun d => (d.base, (coefOf m d).2)) free gf pt) ∧
      (rs.map fun r => (r.gf, r.pt)).Nodup ∧
      (∀ r ∈ rs, fdTempName r.gf r.pt.1 r.pt.2.1 r.pt.2.2 = .ok r.var) ∧
      D.Nodup ∧ (control = none → D = []) ∧
      (control ≠ none → ∀ d ∈ ds, d.op = (c% "dupD") → dirNo d ∈ D) ∧
      (∀ k ∈ D, k < 3 ∧ ∃ d ∈ ds, d.op = (c% "dupD") ∧ dirNo d = k) ∧
      readGfs gfs cps style (ds.map fun d => (d.base, (coefOf m d).2)) free = .ok rs ∧
      upwindDirs control (ds.map DerivName.operator) = .ok D := by
  obtain ⟨D, hD1, hD2, hD3, hD4, hD5⟩ := upwindDirs_spec control ds hg
  have hsplit := C22_split_all ds (fun d hd => ⟨(hg d hd).shape, (hg d hd).stemD, (hg d hd).stemU⟩)
  have hst : (ds.map DerivName.operator).mapM (fun op => (do
      let r ← liftFD (fdcoeffs op (2 * m))
      .ok r.2 : Except GenErr (List (List Int)))) = .ok (ds.map fun d => (coefOf m d).2) := by
    apply mapM_map_ok
    intro d hd
    rw [(coefOf_ok (hg d hd) m hm).1]
    rfl
  have hzip : (ds.map DerivName.base).zip (ds.map fun d => (coefOf m d).2) = ds.map fun d => (d.base, (coefOf m d).2) :=
    zip_map_map _ _ _
  obtain ⟨rs, hr1, hr2, hr3, hr4, _⟩ := C21_reads gfs cps style (ds.map fun d => (d.base, (coefOf m d).2)) free hs
    H.ne H.nodup (fun h => (H.clean _ h).ne rfl) H.kinds (by
      intro x hx
      obtain ⟨d, hd, rfl⟩ := List.mem_map.mp hx
      exact (coefOf_ok (hg d hd) m hm).2.2.2)
  have hfds : ((ds.map DerivName.name).zip ((ds.map DerivName.base).zip (ds.map DerivName.operator))).mapM
      (fun vbo => fdStmt (2 * m) vbo.1 vbo.2.1 vbo.2.2) = .ok (ds.map (fdOf m)) := by
    rw [zip_map_map, zip_map_map]
    apply mapM_map_ok
    intro d hd
    exact fdStmt_eq (hg d hd) m hm
  have hcop : D.mapM (copyStmt (control.getD [])) = .ok (D.map (copyOf (control.getD []))) := by
    apply mapM_ok
    intro k hk
    cases control with
    | none => rw [hD3 rfl] at hk; simp at hk
    | some cs =>
      have hl := hcon cs rfl
      have hk3 := (hD5 k hk).1
      have : k < cs.length := by omega
      simp only [copyStmt, Option.getD_some, copyOf, List.getElem?_eq_getElem this, List.getD_eq_getElem?_getD]
  have hbl : (((ds.map DerivName.name).zip (ds.map DerivName.operator)).filter fun vo =>
      vo.2.length = 5 ∧ containsSub (c% "dupD") vo.2 = true).mapM (fun vo => (do
      let d ← upDir vo.2
      if 3 ≤ d then .error .indexError
      else .ok (Stmt.blend vo.1 (if d ∈ D then some ((c% "Upwind") ++ dec d) else none)
        ((c% "UpwindAlgInput") ++ vo.1) ((c% "UpwindAlgInput") ++ toDdn vo.1)) : Except GenErr Stmt)) =
      .ok ((ds.filter fun d => d.op = (c% "dupD")).map (blendOf D)) := by
    have hf : ((ds.map DerivName.name).zip (ds.map DerivName.operator)).filter (fun vo =>
        vo.2.length = 5 ∧ containsSub (c% "dupD") vo.2 = true) =
        (ds.filter fun d => d.op = (c% "dupD")).map fun d => (d.name, d.operator) := by
      rw [zip_map_map, List.filter_map]
      congr 1
      apply List.filter_congr
      intro d hd
      obtain ⟨h1, h2⟩ := is_dup (hg d hd)
      simp only [Function.comp, h1, decide_eq_true_eq]
      by_cases e : d.op = (c% "dupD")
      · simp [h2 e, e]
      · simp [e]
    rw [hf]
    apply mapM_map_ok
    intro d hd
    obtain ⟨h1, h2⟩ := List.mem_filter.mp hd
    have he : d.op = (c% "dupD") := by simpa using h2
    obtain ⟨u1, u2, _⟩ := upDir_eq (hg d h1) he
    simp only [u1, bind, Except.bind]
    rw [if_neg (by omega), toDdn_name (hg d h1) H.clean he]
    rfl
  refine ⟨rs, D, ?_, hr2, hr3, hr4, hD2, hD3, hD4, hD5, hr1, hD1⟩
  unfold genFD
  simp only [bind, Except.bind] at hst hbl ⊢
  rw [hex]
  simp only [liftName]
  rw [hsplit]
  simp only
  rw [hst]
  simp only
  rw [hzip, hr1]
  simp only
  rw [hfds]
  simp only
  rw [hD1]
  simp only
  rw [hcop]
  simp only
  rw [hbl]
  rfl

theorem genFD_eq {gfs cps free : List Str} (H : Reg gfs cps free) (m : Nat) (hm : 1 ≤ m)
    (style : Str) (hs : style = (c% "210") ∨ style = (c% "012")) (control : Option (List Str))
    (hcon : ∀ cs, control = some cs → cs.length = 3) (ds : List DerivName)
    (hex : extractDerivs gfs cps free = .ok (ds.map DerivName.name)) (hg : ∀ d ∈ ds, Good gfs fiveOps d) :
    ∃ rs D, genFD gfs cps style (2 * m) control free = .ok (rs.map readStmt ++
        (if rs = [] then [] else sortStmts (ds.map (fdOf m) ++ D.map (copyOf (control.getD [])))) ++ D.map algOf ++
        (ds.filter fun d => d.op = (c% "dupD")).map (blendOf D)) ∧
      (∀ gf pt, (∃ r ∈ rs, r.gf = gf ∧ r.pt = pt) ↔
        gf ∈ gfs ∧ Needed (ds.map fun d => (d.base, (coefOf m d).2)) free gf pt) ∧
      (rs.map fun r => (r.gf, r.pt)).Nodup ∧
      (∀ r ∈ rs, fdTempName r.gf r.pt.1 r.pt.2.1 r.pt.2.2 = .ok r.var) ∧
      D.Nodup ∧ (control = none → D = []) ∧
      (control ≠ none → ∀ d ∈ ds, d.op = (c% "dupD") → dirNo d ∈ D) ∧
      ∀ k ∈ D, k < 3 ∧ ∃ d ∈ ds, d.op = (c% "dupD") ∧ dirNo d = k := by
  obtain ⟨rs, D, h1, h2, h3, h4, h5, h6, h7, h8, -⟩ := genFD_parts H m hm style hs control hcon ds hex hg
  exact ⟨rs, D, h1, h2, h3, h4, h5, h6, h7, h8⟩

theorem mem_dec_ne {c : Char} (hc : c.isDigit = false) {k : Nat} {s : Str} : c :: s ≠ dec k := by
  intro e
  have : c ∈ dec k := by rw [← e]; simp
  rw [isDigit_of_mem_dec this] at hc
  cases hc

theorem lhs_disj_copy_alg (k j : Nat) : (c% "UpwindControlVectorU") ++ dec k ≠ (c% "Upwind") ++ dec j := by
  intro e
  have e' : (c% "ControlVectorU") ++ dec k = dec j := List.append_cancel_left (as := (c% "Upwind")) e
  exact mem_dec_ne (by decide) e'

theorem lhs_disj_input_alg (s : Str) (j : Nat) : (c% "UpwindAlgInput") ++ s ≠ (c% "Upwind") ++ dec j := by
  intro e
  have e' : (c% "AlgInput") ++ s = dec j := List.append_cancel_left (as := (c% "Upwind")) e
  exact mem_dec_ne (by decide) e'

theorem lhs_disj_input_copy (s : Str) (j : Nat) : (c% "UpwindAlgInput") ++ s ≠ (c% "UpwindControlVectorU") ++ dec j := by
  intro e
  simp at e

theorem up_prefix (s : Str) : (c% "Upwind") <+: (c% "Upwind") ++ s := List.prefix_append _ _

theorem fdLhs_inj {gfs d e} (hc : ∀ gf ∈ gfs, CleanGf gf) (hd : Good gfs fiveOps d) (he : Good gfs fiveOps e)
    (h : fdLhs d = fdLhs e) : d.name = e.name := by
  unfold fdLhs at h
  have pre : ∀ s : Str, (c% "Upwind") <+: (c% "UpwindAlgInput") ++ s := fun s => ⟨(c% "AlgInput") ++ s, rfl⟩
  split at h <;> split at h
  · exact List.append_cancel_left h
  · exact absurd (h ▸ pre _) (name_up he hc)
  · exact absurd (h ▸ pre _) (name_up hd hc)
  · exact h

/-- Everything at once; C23 and C53 below are read off from it. -/
theorem pipeline {gfs cps free : List Str} {ext : Env} {inv : Char → ℝ} (H : Setting gfs cps free ext inv)
    (m : Nat) (hm : 1 ≤ m) (style : Str) (hs : style = (c% "210") ∨ style = (c% "012"))
    (control : Option (List Str)) (mem : Mem)
    (hcon : ∀ cs, control = some cs → cs.length = 3 ∧ ∀ s ∈ cs, (∃ x, ext s = some x) ∨ (s ∈ gfs ∧ s ∈ free)) :
    ∃ prog env, genFD gfs cps style (2 * m) control free = .ok prog ∧ exec mem prog ext = some env ∧ Ext ext env ∧
      (∀ gf ∈ gfs, gf ∈ free → env gf = some (mem gf (0, 0, 0))) ∧
      (∀ d, Good gfs userOps d → d.name ∈ free → d.name ∉ cps → d.op ≠ (c% "dupD") →
        ∃ x, env d.name = some x ∧ IsDeriv (2 * m) mem inv d.base d.op d.dirs x) ∧
      (∀ d, Good gfs userOps d → d.name ∈ free → d.name ∉ cps → d.op = (c% "dupD") →
        ∃ x up dn, env d.name = some x ∧ IsDeriv (2 * m) mem inv d.base (c% "dupD") d.dirs up ∧
          IsDeriv (2 * m) mem inv d.base (c% "ddnD") d.dirs dn ∧ (control = none → x = dn) ∧
          ∀ cs, control = some cs → ∃ k s v, d.dirs = [dig k] ∧ cs[k]? = some s ∧ env s = some v ∧
            (0 < v → x = up) ∧ (v ≤ 0 → x = dn)) := by
  classical
  obtain ⟨ds, hex, hg, hnd, hall, hddn, _⟩ := extract_spec H
  obtain ⟨rs, D, hgen, hr2, hr3, hr4, hD2, hD3, hD4, hD5⟩ :=
    genFD_eq H.toReg m hm style hs control (fun cs h => (hcon cs h).1) ds hex hg
  have hrgf : ∀ r ∈ rs, r.gf ∈ gfs := fun r hr => ((hr2 r.gf r.pt).mp ⟨r, hr, rfl, rfl⟩).1
  have hvar : ∀ r ∈ rs, r.var = r.gf ++ sufStr r.pt := by
    intro r hr
    have := hr4 r hr
    rw [fdTempName_eq r.gf r.pt (H.clean _ (hrgf r hr)).ne] at this
    exact (Except.ok.inj this).symm
  have pre : ∀ s : Str, (c% "Upwind") <+: (c% "UpwindAlgInput") ++ s := fun s => ⟨(c% "AlgInput") ++ s, rfl⟩
  have preC : ∀ s : Str, (c% "Upwind") <+: (c% "UpwindControlVectorU") ++ s := fun s => ⟨(c% "ControlVectorU") ++ s, rfl⟩
  have hdsnd : ds.Nodup := List.Nodup.of_map _ hnd
  have hinj : ∀ d ∈ ds, ∀ e ∈ ds, d.name = e.name → d = e := fun d hd e he h => List.inj_on_of_nodup_map hnd hd he h
  -- 1. reads
  obtain ⟨env1, x1, ext1, v1, o1⟩ := exec_batch' mem (rs.map readStmt) ext
    (by
      intro s hs'
      obtain ⟨r, hr, rfl⟩ := List.mem_map.mp hs'
      exact ⟨_, rfl⟩)
    (by
      rw [List.map_map]
      have hpw := List.pairwise_map.mp hr3
      refine List.pairwise_map.mpr (hpw.imp_of_mem ?_)
      intro r r' hr hr' hne e
      apply hne
      have e' : r.var = r'.var := e
      have h2 := hr4 r' hr'
      rw [← e'] at h2
      obtain ⟨a, b⟩ := C20_distinct_gridfunctions r.gf r'.gf r.pt r'.pt r.var (H.clean _ (hrgf r hr)).marks
        (H.clean _ (hrgf r' hr')).marks (hr4 r hr) h2
      rw [a, b])
    (by
      intro s hs'
      obtain ⟨r, hr, rfl⟩ := List.mem_map.mp hs'
      exact H.ext_tmp r.gf (hrgf r hr) _ _ _ _ (hr4 r hr))
  have n1 : ∀ n, n ∈ (rs.map readStmt).map Stmt.lhs → ¬ (c% "Upwind") <+: n ∧ ¬ (c% "_d") <:+: n := by
    intro n hn
    obtain ⟨s, hs', rfl⟩ := List.mem_map.mp hn
    obtain ⟨r, hr, rfl⟩ := List.mem_map.mp hs'
    show ¬ _ <+: r.var ∧ ¬ _ <:+: r.var
    rw [hvar r hr]
    exact ⟨tmp_up (H.clean _ (hrgf r hr)) _, tmp_der (H.clean _ (hrgf r hr)) _⟩
  have f1u : ∀ n, (c% "Upwind") <+: n → env1 n = none := by
    intro n hn
    rw [o1 n (fun h => (n1 n h).1 hn)]
    exact H.ext_up n hn
  have f1d : ∀ n, (c% "_d") <:+: n → env1 n = none := by
    intro n hn
    rw [o1 n (fun h => (n1 n h).2 hn)]
    exact H.ext_der n hn
  have hread : ∀ gf pt, gf ∈ gfs → Needed (ds.map fun d => (d.base, (coefOf m d).2)) free gf pt →
      env1 (gf ++ sufStr pt) = some (mem gf pt) := by
    intro gf pt hgf hn
    obtain ⟨r, hr, rfl, rfl⟩ := (hr2 gf pt).mpr ⟨hgf, hn⟩
    have := v1 (readStmt r) (List.mem_map.mpr ⟨r, hr, rfl⟩)
    rw [← hvar r hr]
    exact this
  have hgfval : ∀ gf ∈ gfs, gf ∈ free → env1 gf = some (mem gf (0, 0, 0)) := by
    intro gf h1 h2
    have := hread gf (0, 0, 0) h1 (.inr ⟨rfl, h2⟩)
    simpa [sufStr, sufs, offSuffix] using this
  -- values of the finite-difference expressions
  let fdv : DerivName → ℝ := fun d =>
    applyStencil (coefOf m d) (fun o => mem d.base (o.getD 0 0, o.getD 1 0, o.getD 2 0)) * (d.dirs.map inv).prod
  have hfdv : ∀ d ∈ ds, (fdOf m d).eval mem env1 = some (fdv d) := by
    intro d hd
    obtain ⟨c1, c2, c3, c4⟩ := coefOf_ok (hg d hd) m hm
    have hsum := evalSum_map env1 ((coefOf m d).1.zip (coefOf m d).2) (fun o => d.base ++ sufStr (pt3 o))
      (fun o => mem d.base (o.getD 0 0, o.getD 1 0, o.getD 2 0)) (by
        intro ct hct
        have hmem := (List.of_mem_zip hct).2
        apply hread d.base (pt3 ct.2) (hg d hd).base
        left
        refine ⟨(coefOf m d).2, List.mem_map.mpr ⟨d, hd, rfl⟩, ?_⟩
        have hl := c4 _ hmem
        match hct2 : ct.2, hl with
        | [a, b, c], _ => rw [hct2] at hmem; exact hmem)
    have hprod := evalProd_map env1 d.dirs (fun c => (c% "invdxx") ++ [c]) inv
      (fun c hc => ext1 _ _ (H.ext_inv c ((hg d hd).dirs c hc)))
    simp only [fdOf, Stmt.eval, bind, Option.bind]
    rw [hsum, hprod]
    rfl
  have hfdI : ∀ d ∈ ds, IsDeriv (2 * m) mem inv d.base d.op d.dirs (fdv d) := by
    intro d hd
    exact ⟨coefOf m d, (coefOf_ok (hg d hd) m hm).1, rfl⟩
  -- the reads are not empty if there is a derivative
  have hrne : ds ≠ [] → rs ≠ [] := by
    intro hne hnil
    obtain ⟨d, ds', rfl⟩ := List.exists_cons_of_ne_nil hne
    obtain ⟨c1, c2, c3, c4⟩ := coefOf_ok (hg d (by simp)) m hm
    obtain ⟨o, os, ho⟩ := List.exists_cons_of_ne_nil c3
    have hl := c4 o (by rw [ho]; simp)
    match o, hl, ho with
    | [a, b, c], _, ho =>
      obtain ⟨r, hr, _⟩ := (hr2 d.base (a, b, c)).mpr ⟨(hg d (by simp)).base, .inl ⟨_, List.mem_map.mpr ⟨d, by simp, rfl⟩, by
        rw [ho]; simp⟩⟩
      rw [hnil] at hr; simp at hr
  -- 2. finite differences and control vector
  let S : List Stmt := ds.map (fdOf m) ++ D.map (copyOf (control.getD []))
  have hcopy : ∀ k ∈ D, ∃ cs s v, control = some cs ∧ cs[k]? = some s ∧ env1 s = some v ∧
      copyOf (control.getD []) k = .copy ((c% "UpwindControlVectorU") ++ dec k) s := by
    intro k hk
    cases hc : control with
    | none => rw [hD3 hc] at hk; simp at hk
    | some cs =>
      obtain ⟨hl, hv⟩ := hcon cs hc
      have hk3 := (hD5 k hk).1
      have hlt : k < cs.length := by omega
      have hv' := hv cs[k] (List.getElem_mem hlt)
      have : ∃ v, env1 cs[k] = some v := by
        rcases hv' with ⟨x, hx⟩ | ⟨h1, h2⟩
        · exact ⟨x, ext1 _ _ hx⟩
        · exact ⟨_, hgfval _ h1 h2⟩
      obtain ⟨v, hv''⟩ := this
      refine ⟨cs, cs[k], v, rfl, by simp [hlt], hv'', ?_⟩
      simp [copyOf, List.getD_eq_getElem?_getD, hlt]
  have hSmem : ∀ s ∈ sortStmts S, (∃ d ∈ ds, s = fdOf m d) ∨ ∃ k ∈ D, s = copyOf (control.getD []) k := by
    intro s hs'
    have := (sortStmts_perm S).mem_iff.mp hs'
    rcases List.mem_append.mp this with h | h
    · obtain ⟨d, hd, rfl⟩ := List.mem_map.mp h; exact .inl ⟨d, hd, rfl⟩
    · obtain ⟨d, hd, rfl⟩ := List.mem_map.mp h; exact .inr ⟨d, hd, rfl⟩
  have hlhsfresh : ∀ d ∈ ds, env1 (fdLhs d) = none := by
    intro d hd
    unfold fdLhs
    split
    · exact f1u _ (pre _)
    · exact f1d _ (name_der (hg d hd))
  obtain ⟨env2, x2, ext2, v2, o2⟩ := exec_batch' mem (sortStmts S) env1
    (by
      intro s hs'
      rcases hSmem s hs' with ⟨d, hd, rfl⟩ | ⟨k, hk, rfl⟩
      · exact ⟨_, hfdv d hd⟩
      · obtain ⟨cs, s, v, _, _, h3, h4⟩ := hcopy k hk
        rw [h4]; exact ⟨v, h3⟩)
    (by
      rw [((sortStmts_perm S).map Stmt.lhs).nodup_iff]
      show ((ds.map (fdOf m) ++ D.map (copyOf (control.getD []))).map Stmt.lhs).Nodup
      rw [List.map_append, List.map_map, List.map_map, List.nodup_append]
      refine ⟨?_, ?_, ?_⟩
      · refine List.Nodup.map_on ?_ hdsnd
        intro d hd e he h
        exact hinj d hd e he (fdLhs_inj H.clean (hg d hd) (hg e he) h)
      · refine List.Nodup.map_on ?_ hD2
        intro j _ k _ h
        exact dec_inj (List.append_cancel_left (as := (c% "UpwindControlVectorU")) h)
      · intro a ha b hb hab
        obtain ⟨d, hd, rfl⟩ := List.mem_map.mp ha
        obtain ⟨k, hk, rfl⟩ := List.mem_map.mp hb
        have hab' : fdLhs d = (c% "UpwindControlVectorU") ++ dec k := hab
        unfold fdLhs at hab'
        split at hab'
        · exact lhs_disj_input_copy _ _ hab'
        · exact name_up (hg d hd) H.clean (hab' ▸ preC _))
    (by
      intro s hs'
      rcases hSmem s hs' with ⟨d, hd, rfl⟩ | ⟨k, hk, rfl⟩
      · exact hlhsfresh d hd
      · exact f1u _ (preC _))
  have S2 : exec mem (if rs = [] then [] else sortStmts S) env1 = some env2 := by
    by_cases hrs : rs = []
    · have hd0 : ds = [] := by
        by_contra hne
        exact hrne hne hrs
      have hD0 : D = [] := by
        rw [List.eq_nil_iff_forall_not_mem]
        intro k hk
        obtain ⟨_, d, hd, _⟩ := hD5 k hk
        rw [hd0] at hd; simp at hd
      have : sortStmts S = [] := by simp [S, hd0, hD0, sortStmts]
      rw [if_pos hrs]
      rw [this] at x2
      exact x2
    · rw [if_neg hrs]; exact x2
  have n2 : ∀ n, (∀ d ∈ ds, n ≠ fdLhs d) → (∀ k, n ≠ (c% "UpwindControlVectorU") ++ dec k) → env2 n = env1 n := by
    intro n h1 h2
    apply o2
    intro hn
    obtain ⟨s, hs', rfl⟩ := List.mem_map.mp hn
    rcases hSmem s hs' with ⟨d, hd, rfl⟩ | ⟨k, hk, rfl⟩
    · exact h1 d hd rfl
    · exact h2 k rfl
  have hfd2 : ∀ d ∈ ds, env2 (fdLhs d) = some (fdv d) := by
    intro d hd
    have := v2 (fdOf m d) ((sortStmts_perm S).mem_iff.mpr (List.mem_append_left _ (List.mem_map.mpr ⟨d, hd, rfl⟩)))
    rw [hfdv d hd] at this
    exact this
  have hcp2 : ∀ k ∈ D, ∃ cs s v, control = some cs ∧ cs[k]? = some s ∧ env1 s = some v ∧
      env2 ((c% "UpwindControlVectorU") ++ dec k) = some v := by
    intro k hk
    obtain ⟨cs, s, v, h1, h2, h3, h4⟩ := hcopy k hk
    have := v2 (copyOf (control.getD []) k) ((sortStmts_perm S).mem_iff.mpr (List.mem_append_right _ (List.mem_map.mpr ⟨k, hk, rfl⟩)))
    rw [h4] at this
    exact ⟨cs, s, v, h1, h2, h3, this.trans h3⟩
  -- 3. the upwind switch
  obtain ⟨env3, x3, ext3, v3, o3⟩ := exec_batch' mem (D.map algOf) env2
    (by
      intro s hs'
      obtain ⟨k, hk, rfl⟩ := List.mem_map.mp hs'
      obtain ⟨cs, s, v, _, _, _, h4⟩ := hcp2 k hk
      exact ⟨upwindAlg v, by simp only [algOf, Stmt.eval, h4]; rfl⟩)
    (by
      rw [List.map_map]
      refine List.Nodup.map_on ?_ hD2
      intro j _ k _ h
      exact dec_inj (List.append_cancel_left (as := (c% "Upwind")) h))
    (by
      intro s hs'
      obtain ⟨k, hk, rfl⟩ := List.mem_map.mp hs'
      show env2 ((c% "Upwind") ++ dec k) = none
      rw [n2]
      · exact f1u _ (up_prefix _)
      · intro d hd e
        unfold fdLhs at e
        split at e
        · exact lhs_disj_input_alg _ _ e.symm
        · exact name_up (hg d hd) H.clean (e ▸ up_prefix _)
      · intro j e
        exact lhs_disj_copy_alg _ _ e.symm)
  have hal3 : ∀ k ∈ D, ∃ cs s v, control = some cs ∧ cs[k]? = some s ∧ env1 s = some v ∧
      env3 ((c% "Upwind") ++ dec k) = some (upwindAlg v) := by
    intro k hk
    obtain ⟨cs, s, v, h1, h2, h3, h4⟩ := hcp2 k hk
    refine ⟨cs, s, v, h1, h2, h3, ?_⟩
    have := v3 (algOf k) (List.mem_map.mpr ⟨k, hk, rfl⟩)
    simp only [algOf, Stmt.eval, h4, Stmt.lhs] at this
    exact this
  -- 4. the blends
  have hdn : ∀ d ∈ ds, d.op = (c% "dupD") → ∃ x, env3 ((c% "UpwindAlgInput") ++ d.ddn.name) = some x ∧
      IsDeriv (2 * m) mem inv d.base (c% "ddnD") d.dirs x := by
    intro d hd hop
    obtain ⟨e, he, hen⟩ := List.mem_map.mp (hddn d hd hop)
    have g1 := hg e he
    have g2 := ddn_good (hg d hd) hop
    have s1 := C22_split e g1.shape g1.stemD g1.stemU
    have s2 := C22_split d.ddn g2.shape g2.stemD g2.stemU
    rw [hen, s2] at s1
    obtain ⟨b1, b2⟩ := Prod.mk.inj (Except.ok.inj s1)
    have b2' : (c% "ddnD") ++ d.dirs = e.op ++ e.dirs := b2
    have hop4 : e.op = (c% "ddnD") ∧ e.dirs = d.dirs := by
      rcases good_cases g1 with ⟨c, _, hdc, ho⟩ | ⟨c1, _, c2, _, hdc, ho⟩
      · rcases ho with x | x | x | x <;> rw [x] at b2'
        · simp at b2'
        · simp at b2'
        · simp at b2'
        · exact ⟨x, (List.append_cancel_left b2').symm⟩
      · rw [ho] at b2'; simp at b2'
    have := ext3 _ _ (hfd2 e he)
    have hl : fdLhs e = (c% "UpwindAlgInput") ++ d.ddn.name := by
      unfold fdLhs upw
      rw [hop4.1, hen]
      rfl
    rw [hl] at this
    refine ⟨_, this, ?_⟩
    have hI := hfdI e he
    have hbase : e.base = d.base := b1.symm
    rw [hop4.1, hop4.2, hbase] at hI
    exact hI
  have hup : ∀ d ∈ ds, d.op = (c% "dupD") → env3 ((c% "UpwindAlgInput") ++ d.name) = some (fdv d) := by
    intro d hd hop
    have := ext3 _ _ (hfd2 d hd)
    have hl : fdLhs d = (c% "UpwindAlgInput") ++ d.name := by
      unfold fdLhs upw
      rw [hop]
      rfl
    rw [hl] at this
    exact this
  have hbl : ∀ d ∈ ds, d.op = (c% "dupD") → ∃ x up dn, (blendOf D d).eval mem env3 = some x ∧
      IsDeriv (2 * m) mem inv d.base (c% "dupD") d.dirs up ∧ IsDeriv (2 * m) mem inv d.base (c% "ddnD") d.dirs dn ∧
      (control = none → x = dn) ∧ ∀ cs, control = some cs → ∃ k s v, d.dirs = [dig k] ∧ cs[k]? = some s ∧
        env1 s = some v ∧ (0 < v → x = up) ∧ (v ≤ 0 → x = dn) := by
    intro d hd hop
    obtain ⟨dn, e1, hIdn⟩ := hdn d hd hop
    have e2 := hup d hd hop
    have hIup := hfdI d hd
    rw [hop] at hIup
    cases hc : control with
    | none =>
      have hD0 := hD3 hc
      refine ⟨dn, fdv d, dn, ?_, hIup, hIdn, fun _ => rfl, by simp⟩
      simp only [blendOf, Stmt.eval, bind, Option.bind, e1, e2, hD0, List.not_mem_nil, if_false]
      simp
    | some cs =>
      have hk := hD4 (by rw [hc]; simp) d hd hop
      obtain ⟨cs', s, v, h1, h2, h3, h4⟩ := hal3 _ hk
      rw [hc] at h1
      obtain rfl := Option.some.inj h1
      refine ⟨upwindAlg v * (fdv d - dn) + dn, fdv d, dn, ?_, hIup, hIdn, by simp, ?_⟩
      · simp only [blendOf, Stmt.eval, bind, Option.bind, e1, e2, hk, h4, if_true]
      · intro cs' hcs
        obtain rfl := Option.some.inj hcs
        refine ⟨dirNo d, s, v, (upDir_eq (hg d hd) hop).2.2, h2, h3, ?_, ?_⟩
        · intro hv; simp [upwindAlg, hv]
        · intro hv; simp [upwindAlg, not_lt.mpr hv]
  obtain ⟨env4, x4, ext4, v4, o4⟩ := exec_batch' mem ((ds.filter fun d => d.op = (c% "dupD")).map (blendOf D)) env3
    (by
      intro s hs'
      obtain ⟨d, hd, rfl⟩ := List.mem_map.mp hs'
      obtain ⟨h1, h2⟩ := List.mem_filter.mp hd
      obtain ⟨x, _, _, h, _⟩ := hbl d h1 (by simpa using h2)
      exact ⟨x, h⟩)
    (by
      rw [List.map_map]
      refine List.Nodup.map_on ?_ (hdsnd.filter _)
      intro d hd e he h
      exact hinj d (List.mem_filter.mp hd).1 e (List.mem_filter.mp he).1 h)
    (by
      intro s hs'
      obtain ⟨d, hd, rfl⟩ := List.mem_map.mp hs'
      obtain ⟨h1, h2⟩ := List.mem_filter.mp hd
      have hop : d.op = (c% "dupD") := by simpa using h2
      have hnu := name_up (hg d h1) H.clean
      show env3 d.name = none
      rw [o3]
      · rw [n2]
        · exact f1d _ (name_der (hg d h1))
        · intro e he heq
          unfold fdLhs at heq
          split at heq
          · exact hnu (heq ▸ pre _)
          · have := hinj d h1 e he heq
            subst this
            rename_i hne
            exact hne (by simp [upw, hop])
        · intro k heq; exact hnu (heq ▸ preC _)
      · intro hn
        obtain ⟨s, hs'', e⟩ := List.mem_map.mp hn
        obtain ⟨k, _, rfl⟩ := List.mem_map.mp hs''
        exact hnu (e ▸ up_prefix _))
  have E14 : Ext env1 env4 := fun n x h => ext4 n x (ext3 n x (ext2 n x h))
  refine ⟨_, env4, hgen, ?_, fun n x h => E14 n x (ext1 n x h), fun gf h1 h2 => E14 _ _ (hgfval gf h1 h2), ?_, ?_⟩
  · rw [exec_append, exec_append, exec_append, x1]
    simp only [Option.bind]
    rw [show ds.map (fdOf m) ++ D.map (copyOf (control.getD [])) = S from rfl, S2]
    simp only
    rw [x3]
    exact x4
  · intro d hd hfree hcp hop
    obtain ⟨e, he, hen⟩ := List.mem_map.mp (hall d hd hfree hcp)
    have g1 := hg e he
    have s1 := C22_split e g1.shape g1.stemD g1.stemU
    have s2 := C22_split d hd.shape hd.stemD hd.stemU
    rw [hen, s2] at s1
    obtain ⟨b1, b2⟩ := Prod.mk.inj (Except.ok.inj s1)
    have hop' := hd.op
    simp only [userOps, List.mem_cons, List.not_mem_nil, or_false] at hop'
    have hbd : e.op = d.op ∧ e.dirs = d.dirs := by
      have b2' : d.op ++ d.dirs = e.op ++ e.dirs := b2
      rcases good_cases (user_five hd) with ⟨c, hc, hdc, ho⟩ | ⟨c1, hc1, c2, hc2, hdc, ho⟩ <;>
      rcases good_cases g1 with ⟨c', hc', hdc', ho'⟩ | ⟨c1', hc1', c2', hc2', hdc', ho'⟩
      · rw [hdc, hdc'] at b2'
        have hlen : d.op.length = e.op.length := by simpa using congrArg List.length b2'
        obtain ⟨q1, q2⟩ := List.append_inj b2' hlen
        exact ⟨q1.symm, by rw [hdc, hdc', q2]⟩
      · rw [hdc, hdc', ho'] at b2'
        rcases ho with x | x | x | x <;> rw [x] at b2' <;> simp at b2'
      · rw [hdc, hdc', ho] at b2'
        rcases ho' with x | x | x | x <;> rw [x] at b2' <;> simp at b2'
      · rw [ho, ho'] at b2'
        exact ⟨ho'.trans ho.symm, (List.append_cancel_left b2').symm⟩
    have hne : upw e = false := by
      unfold upw
      rw [hbd.1]
      rcases hop' with x | x | x | x
      · rw [x]; decide
      · rw [x]; decide
      · rw [x]; decide
      · exact absurd x hop
    have := E14
    have hv := ext4 _ _ (ext3 _ _ (hfd2 e he))
    have hl : fdLhs e = d.name := by unfold fdLhs; rw [hne, hen]; rfl
    rw [hl] at hv
    refine ⟨_, hv, ?_⟩
    have hI := hfdI e he
    have hbase : e.base = d.base := b1.symm
    rw [hbd.1, hbd.2, hbase] at hI
    exact hI
  · intro d hd hfree hcp hop
    obtain ⟨e, he, hen⟩ := List.mem_map.mp (hall d hd hfree hcp)
    have g1 := hg e he
    have heop : e.op = (c% "dupD") := by
      rw [← name_dup_iff g1 H.clean, hen, name_dup_iff (user_five hd) H.clean]
      exact hop
    have s1 := C22_split e g1.shape g1.stemD g1.stemU
    have s2 := C22_split d hd.shape hd.stemD hd.stemU
    rw [hen, s2] at s1
    obtain ⟨b1, b2⟩ := Prod.mk.inj (Except.ok.inj s1)
    have b2' : d.op ++ d.dirs = e.op ++ e.dirs := b2
    rw [hop, heop] at b2'
    have hdirs : d.dirs = e.dirs := List.append_cancel_left b2'
    obtain ⟨x, up, dn, h1, h2, h3, h4, h5⟩ := hbl e he heop
    have hv := v4 (blendOf D e) (List.mem_map.mpr ⟨e, List.mem_filter.mpr ⟨he, by simp [heop]⟩, rfl⟩)
    rw [h1] at hv
    have hl : (blendOf D e).lhs = d.name := hen
    rw [hl] at hv
    have hbase : e.base = d.base := b1.symm
    rw [hbase, ← hdirs] at h2 h3
    refine ⟨x, up, dn, hv, h2, h3, h4, ?_⟩
    intro cs hcs
    obtain ⟨k, s, v, k1, k2, k3, k4⟩ := h5 cs hcs
    exact ⟨k, s, v, by rw [hdirs]; exact k1, k2, E14 _ _ k3, k4⟩

/-! ## C53 -/

/-- **C53.** The generated prefix compiles (no variable is used before its declaration or declared twice),
keeps the variables that were in scope, reads every gridfunction the expressions use, and gives every
`_dD`, `_dDD` and `_dKOD` symbol the value of its stencil. -/
theorem C53_derivatives {gfs cps free : List Str} {ext : Env} {inv : Char → ℝ} (H : Setting gfs cps free ext inv)
    (m : Nat) (hm : 1 ≤ m) (style : Str) (hs : style = (c% "210") ∨ style = (c% "012"))
    (control : Option (List Str)) (mem : Mem)
    (hcon : ∀ cs, control = some cs → cs.length = 3 ∧ ∀ s ∈ cs, (∃ x, ext s = some x) ∨ (s ∈ gfs ∧ s ∈ free)) :
    ∃ prog env, genFD gfs cps style (2 * m) control free = .ok prog ∧ exec mem prog ext = some env ∧
      (∀ n x, ext n = some x → env n = some x) ∧
      (∀ gf ∈ gfs, gf ∈ free → env gf = some (mem gf (0, 0, 0))) ∧
      (∀ d, Good gfs userOps d → d.name ∈ free → d.name ∉ cps → d.op ≠ (c% "dupD") →
        ∃ x, env d.name = some x ∧ IsDeriv (2 * m) mem inv d.base d.op d.dirs x) ∧
      (∀ d, Good gfs userOps d → d.name ∈ free → d.name ∉ cps → ∃ x, env d.name = some x) := by
  obtain ⟨prog, env, h1, h2, h3, h4, h5, h6⟩ := pipeline H m hm style hs control mem hcon
  refine ⟨prog, env, h1, h2, h3, h4, h5, ?_⟩
  intro d hd hf hc
  by_cases hop : d.op = (c% "dupD")
  · obtain ⟨x, _, _, h, _⟩ := h6 d hd hf hc hop
    exact ⟨x, h⟩
  · obtain ⟨x, h, _⟩ := h5 d hd hf hc hop
    exact ⟨x, h⟩

/-! ## C23 -/

/-- **C23.** With a control vector, an upwinded derivative in direction `k` equals the `dupD` stencil where
component `k` of the control vector is positive and the `ddnD` stencil elsewhere. -/
theorem C23_upwind {gfs cps free : List Str} {ext : Env} {inv : Char → ℝ} (H : Setting gfs cps free ext inv)
    (m : Nat) (hm : 1 ≤ m) (style : Str) (hs : style = (c% "210") ∨ style = (c% "012"))
    (cs : List Str) (mem : Mem) (hl : cs.length = 3)
    (hcon : ∀ s ∈ cs, (∃ x, ext s = some x) ∨ (s ∈ gfs ∧ s ∈ free)) :
    ∃ prog env, genFD gfs cps style (2 * m) (some cs) free = .ok prog ∧ exec mem prog ext = some env ∧
      ∀ d, Good gfs userOps d → d.name ∈ free → d.name ∉ cps → d.op = (c% "dupD") →
        ∃ x up dn k s v, env d.name = some x ∧ IsDeriv (2 * m) mem inv d.base (c% "dupD") d.dirs up ∧
          IsDeriv (2 * m) mem inv d.base (c% "ddnD") d.dirs dn ∧ d.dirs = [dig k] ∧ cs[k]? = some s ∧
          env s = some v ∧ (0 < v → x = up) ∧ (v ≤ 0 → x = dn) := by
  obtain ⟨prog, env, h1, h2, _, _, _, h6⟩ := pipeline H m hm style hs (some cs) mem (by
    intro cs' h; obtain rfl := Option.some.inj h; exact ⟨hl, hcon⟩)
  refine ⟨prog, env, h1, h2, ?_⟩
  intro d hd hf hc hop
  obtain ⟨x, up, dn, a, b, c, _, e⟩ := h6 d hd hf hc hop
  obtain ⟨k, s, v, k1, k2, k3, k4⟩ := e cs rfl
  exact ⟨x, up, dn, k, s, v, a, b, c, k1, k2, k3, k4⟩

/-- Without a control vector every upwinded derivative becomes the `ddnD` one (a warning is printed during
generation, but the code compiles and runs). -/
theorem C23_unset_control {gfs cps free : List Str} {ext : Env} {inv : Char → ℝ} (H : Setting gfs cps free ext inv)
    (m : Nat) (hm : 1 ≤ m) (style : Str) (hs : style = (c% "210") ∨ style = (c% "012")) (mem : Mem) :
    ∃ prog env, genFD gfs cps style (2 * m) none free = .ok prog ∧ exec mem prog ext = some env ∧
      ∀ d, Good gfs userOps d → d.name ∈ free → d.name ∉ cps → d.op = (c% "dupD") →
        ∃ x, env d.name = some x ∧ IsDeriv (2 * m) mem inv d.base (c% "ddnD") d.dirs x := by
  obtain ⟨prog, env, h1, h2, _, _, _, h6⟩ := pipeline H m hm style hs none mem (by simp)
  refine ⟨prog, env, h1, h2, ?_⟩
  intro d hd hf hc hop
  obtain ⟨x, up, dn, a, b, c, e, _⟩ := h6 d hd hf hc hop
  exact ⟨x, a, e rfl ▸ c⟩

theorem exec_unbound (mem : Mem) (v s : Str) (prog : List Stmt) (env : Env) (h : Stmt.copy v s ∈ prog)
    (hs : env s = none) (hl : ∀ t ∈ prog, t.lhs ≠ s) : exec mem prog env = none := by
  induction prog generalizing env with
  | nil => simp at h
  | cons t l ih =>
    rcases List.mem_cons.mp h with rfl | h
    · simp [exec, Stmt.eval, hs]
    · simp only [exec, bind, Option.bind]
      cases t.eval mem env with
      | none => rfl
      | some x =>
        simp only
        split
        · rfl
        · apply ih _ h
          · rw [if_neg (fun e => hl t (by simp) e.symm)]; exact hs
          · exact fun t' ht' => hl t' (by simp [ht'])

/-- The hypothesis of `C23_upwind` on the control vector is needed: a component that is a gridfunction which
the expressions themselves do not use is not read from memory, and the generated code does not compile. -/
theorem C23_control_not_read {gfs cps free : List Str} {ext : Env} {inv : Char → ℝ} (H : Setting gfs cps free ext inv)
    (m : Nat) (hm : 1 ≤ m) (style : Str) (hs : style = (c% "210") ∨ style = (c% "012"))
    (cs : List Str) (mem : Mem) (hl : cs.length = 3) (d : DerivName) (hd : Good gfs userOps d)
    (hf : d.name ∈ free) (hc : d.name ∉ cps) (hop : d.op = (c% "dupD")) (k : Nat) (s : Str)
    (hk : d.dirs = [dig k]) (hk3 : k < 3) (hcs : cs[k]? = some s) (hsg : s ∈ gfs) (hsf : s ∉ free) (hse : ext s = none)
    (hsd : ∀ e, Good gfs userOps e → e.name ∈ free → e.base ≠ s) :
    ∃ prog, genFD gfs cps style (2 * m) (some cs) free = .ok prog ∧ exec mem prog ext = none := by
  obtain ⟨ds, hex, hg, hnd, hall, hddn, hsrc⟩ := extract_spec H
  obtain ⟨rs, D, hgen, hr2, hr3, hr4, hD2, hD3, hD4, hD5⟩ :=
    genFD_eq H.toReg m hm style hs (some cs) (fun cs' h => by obtain rfl := Option.some.inj h; exact hl) ds hex hg
  refine ⟨_, hgen, ?_⟩
  obtain ⟨e, he, hen⟩ := List.mem_map.mp (hall d hd hf hc)
  have heop : e.op = (c% "dupD") := by
    rw [← name_dup_iff (hg e he) H.clean, hen, name_dup_iff (user_five hd) H.clean]
    exact hop
  have hdirs : d.dirs = e.dirs := by
    have s1 := C22_split e (hg e he).shape (hg e he).stemD (hg e he).stemU
    rw [hen, C22_split d hd.shape hd.stemD hd.stemU] at s1
    have b2' : d.op ++ d.dirs = e.op ++ e.dirs := (Prod.mk.inj (Except.ok.inj s1)).2
    rw [hop, heop] at b2'
    exact List.append_cancel_left b2'
  have hkD : k ∈ D := by
    have := hD4 (by simp) e he heop
    have h3 := (upDir_eq (hg e he) heop).2.2
    rw [← hdirs, hk] at h3
    have h4 := (upDir_eq (hg e he) heop).2.1
    have : dirNo e = k := by
      generalize hn : dirNo e = n at *
      have h5 : dig k = dig n := by simpa using h3
      have hk' : k = 0 ∨ k = 1 ∨ k = 2 := by omega
      have hn' : n = 0 ∨ n = 1 ∨ n = 2 := by omega
      rcases hk' with rfl | rfl | rfl <;> rcases hn' with rfl | rfl | rfl <;>
        first | rfl | (exact absurd h5 (by decide))
    rw [← this]; assumption
  have hrs : rs ≠ [] := by
    intro hnil
    obtain ⟨c1, c2, c3, c4⟩ := coefOf_ok (hg e he) m hm
    obtain ⟨o, os, ho⟩ := List.exists_cons_of_ne_nil c3
    have hl := c4 o (by rw [ho]; simp)
    match o, hl, ho with
    | [a, b, c], _, ho =>
      obtain ⟨r, hr, _⟩ := (hr2 e.base (a, b, c)).mpr ⟨(hg e he).base, .inl ⟨_, List.mem_map.mpr ⟨e, he, rfl⟩, by
        rw [ho]; simp⟩⟩
      rw [hnil] at hr; simp at hr
  have hcl := H.clean s hsg
  apply exec_unbound mem ((c% "UpwindControlVectorU") ++ dec k) s
  · rw [if_neg hrs]
    apply List.mem_append_left
    apply List.mem_append_left
    apply List.mem_append_right
    refine (sortStmts_perm _).mem_iff.mpr (List.mem_append_right _ (List.mem_map.mpr ⟨k, hkD, ?_⟩))
    simp [copyOf, List.getD_eq_getElem?_getD, hcs]
  · exact hse
  · intro t ht hts
    have pre : ∀ s : Str, (c% "Upwind") <+: (c% "UpwindAlgInput") ++ s := fun s => ⟨(c% "AlgInput") ++ s, rfl⟩
    have preC : ∀ s : Str, (c% "Upwind") <+: (c% "UpwindControlVectorU") ++ s := fun s => ⟨(c% "ControlVectorU") ++ s, rfl⟩
    rw [if_neg hrs] at ht
    simp only [List.mem_append, List.mem_map] at ht
    rcases ht with ((⟨r, hr, rfl⟩ | ht) | ⟨j, _, rfl⟩) | ⟨e, he, rfl⟩
    · have h0 : fdTempName s 0 0 0 = .ok s := (C20_distinct_offsets s hcl.ne (0, 0, 0) (0, 0, 0)).choose_spec.choose_spec.2.2.2
      have hrg := ((hr2 r.gf r.pt).mp ⟨r, hr, rfl, rfl⟩)
      have hrv := hr4 r hr
      have hts' : r.var = s := hts
      rw [hts'] at hrv
      obtain ⟨g1, g2⟩ := C20_distinct_gridfunctions r.gf s r.pt (0, 0, 0) s (H.clean _ hrg.1).marks hcl.marks hrv h0
      rw [g1] at hrg
      rcases hrg.2 with ⟨st, hst, _⟩ | ⟨_, h⟩
      · obtain ⟨e', he', heq⟩ := List.mem_map.mp hst
        obtain ⟨f, hf1, hf2, hf3⟩ := hsrc e' he'
        exact hsd f hf1 hf2 (hf3.trans (Prod.mk.inj heq).1)
      · exact hsf h
    · have := (sortStmts_perm _).mem_iff.mp ht
      rcases List.mem_append.mp this with h | h
      · obtain ⟨e, he, rfl⟩ := List.mem_map.mp h
        have hts' : fdLhs e = s := hts
        unfold fdLhs at hts'
        split at hts'
        · exact hcl.up (hts' ▸ pre _)
        · exact hcl.der (hts' ▸ name_der (hg e he))
      · obtain ⟨j, _, rfl⟩ := List.mem_map.mp h
        exact hcl.up (hts ▸ preC _)
    · exact hcl.up (hts ▸ up_prefix _)
    · have he' := (List.mem_filter.mp he).1
      exact hcl.der (hts ▸ name_der (hg e he'))

/-- A `_ddnD` symbol written by the user is accepted, but no declaration of it is generated. -/
theorem C53_ddn_undeclared (m : Nat) (hm : 1 ≤ m) (style : Str) (hs : style = (c% "210") ∨ style = (c% "012")) :
    ∃ prog, genFD [(c% "h")] [] style (2 * m) none [(c% "h_ddnD0")] = .ok prog ∧ ∀ s ∈ prog, s.lhs ≠ (c% "h_ddnD0") := by
  have hclean : CleanGf (c% "h") := ⟨by decide, by decide, by decide, by decide⟩
  have R : Reg [(c% "h")] [] [(c% "h_ddnD0")] := ⟨by decide, by decide, by simpa using hclean, by simp⟩
  have hg : Good [(c% "h")] fiveOps ⟨(c% "h"), [], (c% "ddnD"), [], (c% "0")⟩ :=
    ⟨⟨by decide, by decide, by decide, ⟨(c% "ddn"), rfl⟩, by decide, rfl, by decide, by decide⟩, by decide, by decide,
      by decide, by decide, by decide⟩
  obtain ⟨rs, D, hgen, hr2, hr3, hr4, _, hD3, _⟩ := genFD_eq R m hm style hs none (by simp)
    [⟨(c% "h"), [], (c% "ddnD"), [], (c% "0")⟩] rfl (by simpa using hg)
  refine ⟨_, hgen, ?_⟩
  rw [hD3 rfl]
  intro s hs' e
  simp only [List.map_nil, List.append_nil, List.mem_append, List.mem_map] at hs'
  rcases hs' with (⟨r, hr, rfl⟩ | h) | ⟨d, hd, rfl⟩
  · have hrg := ((hr2 r.gf r.pt).mp ⟨r, hr, rfl, rfl⟩).1
    have hcl := R.clean _ hrg
    have hv := hr4 r hr
    rw [fdTempName_eq r.gf r.pt hcl.ne] at hv
    have hv' : r.var = r.gf ++ sufStr r.pt := (Except.ok.inj hv).symm
    have e' : r.var = (c% "h_ddnD0") := e
    apply tmp_der hcl r.pt
    rw [← hv', e']
    decide
  · split at h
    · simp at h
    · have := (sortStmts_perm _).mem_iff.mp h
      simp only [List.map_cons, List.map_nil, List.append_nil, List.mem_singleton] at this
      subst this
      have e' : fdLhs ⟨(c% "h"), [], (c% "ddnD"), [], (c% "0")⟩ = (c% "h_ddnD0") := e
      exact absurd e' (by decide)
  · have := (List.mem_filter.mp hd).2
    have h1 := (List.mem_filter.mp hd).1
    simp only [List.mem_singleton] at h1
    subst h1
    exact absurd this (by decide)

/-! ### The hypotheses are met by a concrete case -/

section Example

def exGfs : List Str := [(c% "hDD01"), (c% "vU0"), (c% "vU1"), (c% "vU2")]
def exFree : List Str := [(c% "hDD_dupD011"), (c% "hDD_dDD0102"), (c% "vU0"), (c% "vU1"), (c% "vU2"), (c% "eta")]
noncomputable def exExt : Env := fun n =>
  if n = (c% "invdxx0") ∨ n = (c% "invdxx1") ∨ n = (c% "invdxx2") then some 10
  else if n = (c% "eta") then some 2 else none

theorem exSetting : Setting exGfs [(c% "eta")] exFree exExt (fun _ => 10) where
  ne := by decide
  nodup := by decide
  clean := by
    have : ∀ gf ∈ exGfs, gf ≠ [] ∧ ¬ (c% "Upwind") <+: gf ∧ ¬ (c% "_d") <:+: gf ∧ ∀ m ∈ offsetMarks, ¬ m <:+: gf := by decide
    intro gf h
    obtain ⟨a, b, c, d⟩ := this gf h
    exact ⟨a, b, c, d⟩
  kinds := by decide
  free := by
    intro v hv h1 h2 h3
    simp only [exFree, List.mem_cons, List.not_mem_nil, or_false] at hv
    rcases hv with rfl | rfl | rfl | rfl | rfl | rfl
    · exact ⟨⟨(c% "h"), (c% "DD"), (c% "dupD"), (c% "01"), (c% "1")⟩,
        ⟨⟨by decide, by decide, by decide, ⟨(c% "dup"), rfl⟩, by decide, rfl, by decide, by decide⟩, by decide, by decide,
          by decide, by decide, by decide⟩, rfl⟩
    · exact ⟨⟨(c% "h"), (c% "DD"), (c% "dDD"), (c% "01"), (c% "02")⟩,
        ⟨⟨by decide, by decide, by decide, ⟨(c% "dD"), rfl⟩, by decide, rfl, by decide, by decide⟩, by decide, by decide,
          by decide, by decide, by decide⟩, rfl⟩
    · exact absurd h3 (by decide)
    · exact absurd h3 (by decide)
    · exact absurd h3 (by decide)
    · exact absurd h3 (by decide)
  ext_inv := by
    intro c hc
    simp only [List.mem_cons, List.not_mem_nil, or_false] at hc
    rcases hc with rfl | rfl | rfl <;> simp [exExt]
  ext_up := by
    intro n hn
    unfold exExt
    rw [if_neg, if_neg]
    · rintro rfl; revert hn; decide
    · rintro (rfl | rfl | rfl) <;> revert hn <;> decide
  ext_der := by
    intro n hn
    unfold exExt
    rw [if_neg, if_neg]
    · rintro rfl; revert hn; decide
    · rintro (rfl | rfl | rfl) <;> revert hn <;> decide
  ext_tmp := by
    intro gf hgf a b c n hn
    have hne : gf ≠ [] := by intro e; rw [e] at hgf; revert hgf; decide
    rw [show fdTempName gf a b c = _ from fdTempName_eq gf (a, b, c) hne] at hn
    obtain rfl := Except.ok.inj hn
    simp only [exGfs, List.mem_cons, List.not_mem_nil, or_false] at hgf
    unfold exExt
    rw [if_neg, if_neg]
    · rcases hgf with rfl | rfl | rfl | rfl <;> simp
    · rcases hgf with rfl | rfl | rfl | rfl <;> simp

/-- With control vector `vU`, at fourth order. -/
example (mem : Mem) := C23_upwind exSetting 2 (by omega) (c% "210") (.inl rfl) [(c% "vU0"), (c% "vU1"), (c% "vU2")] mem rfl
  (by intro s hs; right; revert s; decide)

/-- The upwinded derivative alone: the control vector is not read. -/
example (mem : Mem) : ∃ prog, genFD exGfs [(c% "eta")] (c% "210") 4 (some [(c% "vU0"), (c% "vU1"), (c% "vU2")])
    [(c% "hDD_dupD011")] = .ok prog ∧ exec mem prog exExt = none := by
  have H : Setting exGfs [(c% "eta")] [(c% "hDD_dupD011")] exExt (fun _ => 10) :=
    { exSetting with
      kinds := by decide
      free := fun v hv => exSetting.free v (by simp only [List.mem_singleton] at hv; subst hv; decide) }
  have hd : Good exGfs userOps ⟨(c% "h"), (c% "DD"), (c% "dupD"), (c% "01"), (c% "1")⟩ :=
    ⟨⟨by decide, by decide, by decide, ⟨(c% "dup"), rfl⟩, by decide, rfl, by decide, by decide⟩, by decide, by decide,
      by decide, by decide, by decide⟩
  refine C23_control_not_read H 2 (by omega) (c% "210") (.inl rfl) _ mem rfl _ hd (by decide) (by decide) rfl 1 (c% "vU1")
    rfl (by omega) rfl (by decide) (by decide) (by simp [exExt]) ?_
  intro e he hen hb
  have h1 := C22_split e he.shape he.stemD he.stemU
  rw [List.mem_singleton.mp hen] at h1
  have h2 : splitDeriv (c% "hDD_dupD011") = .ok ((c% "hDD01"), (c% "dupD1")) := rfl
  rw [h2] at h1
  have h3 : (c% "hDD01") = e.base := (Prod.mk.inj (Except.ok.inj h1)).1
  rw [← h3] at hb
  exact absurd hb (by decide)

end Example

end Verif.FD
