import Verif.FD.Names
import Verif.Helpers.FunctionalProps
import Verif.CFunction.Props
import Mathlib.Data.List.Perm.Basic
import Mathlib.Data.List.Nodup

/-!
# Properties C20 (temporary names), C21 (memory reads) and C22 (splitting derivative names)
-/
namespace Verif.FD
open Verif.Py Verif.Helpers Verif.CFunction

/-! ## C20 -/

def sufs (a : Int × Int × Int) : List Str := offSuffix '0' a.1 ++ offSuffix '1' a.2.1 ++ offSuffix '2' a.2.2

def sufStr (a : Int × Int × Int) : Str := if sufs a = [] then [] else '_' :: joinWith '_' (sufs a)

theorem fdTempName_eq (gf : Str) (a : Int × Int × Int) (h : gf ≠ []) :
    fdTempName gf a.1 a.2.1 a.2.2 = .ok (gf ++ sufStr a) := by
  unfold fdTempName sufStr
  rw [if_neg h]
  show (if sufs a = [] then _ else _) = _
  split <;> simp [sufs]

theorem offSuffix_mem {k : Char} {o : Int} {p : Str} (h : p ∈ offSuffix k o) :
    ∃ s n, (s = 'm' ∨ s = 'p') ∧ p = 'i' :: k :: s :: dec n := by
  unfold offSuffix at h
  split at h
  · exact ⟨'m', _, .inl rfl, by simpa using h⟩
  · split at h
    · exact ⟨'p', _, .inr rfl, by simpa using h⟩
    · simp at h

theorem offSuffix_inj {k : Char} {a b : Int} (h : offSuffix k a = offSuffix k b) : a = b := by
  unfold offSuffix at h
  rcases Int.lt_trichotomy a 0 with ha | ha | ha <;> rcases Int.lt_trichotomy b 0 with hb | hb | hb
  · rw [if_pos ha, if_pos hb] at h
    simp only [List.cons.injEq, true_and, and_true] at h
    have := dec_inj h; omega
  · subst hb; rw [if_pos ha] at h; simp at h
  · rw [if_pos ha, if_neg (by omega), if_pos hb] at h
    simp only [List.cons.injEq] at h; exact absurd h.1.2.2.1 (by decide)
  · subst ha; rw [if_pos hb] at h; simp at h
  · omega
  · subst ha; rw [if_neg (by omega : ¬ b < 0), if_pos hb] at h; simp at h
  · rw [if_neg (by omega), if_pos ha, if_pos hb] at h
    simp only [List.cons.injEq] at h; exact absurd h.1.2.2.1 (by decide)
  · subst hb; rw [if_neg (by omega : ¬ a < 0), if_pos ha] at h; simp at h
  · rw [if_neg (by omega), if_pos ha, if_neg (by omega), if_pos hb] at h
    simp only [List.cons.injEq, true_and, and_true] at h
    have := dec_inj h; omega

theorem sufs_no_us (a : Int × Int × Int) : ∀ p ∈ sufs a, '_' ∉ p := by
  intro p hp
  have : ∃ k : Char, (k = '0' ∨ k = '1' ∨ k = '2') ∧ ∃ o, p ∈ offSuffix k o := by
    simp only [sufs, List.mem_append] at hp
    rcases hp with (h | h) | h
    · exact ⟨_, .inl rfl, _, h⟩
    · exact ⟨_, .inr (.inl rfl), _, h⟩
    · exact ⟨_, .inr (.inr rfl), _, h⟩
  obtain ⟨k, hk, o, ho⟩ := this
  obtain ⟨s, n, hs, rfl⟩ := offSuffix_mem ho
  have hd : '_' ∉ dec n := not_mem_dec (by decide)
  simp only [List.mem_cons, not_or]
  refine ⟨by decide, ?_, ?_, hd⟩
  · rcases hk with rfl | rfl | rfl <;> decide
  · rcases hs with rfl | rfl <;> decide

/-- The entry belonging to axis `k`. -/
def pick (k : Char) (l : List Str) : List Str := l.filter (fun p => p[1]? = some k)

theorem pick_offSuffix (k j : Char) (o : Int) :
    pick k (offSuffix j o) = if j = k then offSuffix j o else [] := by
  unfold pick
  split
  · rename_i h
    rw [List.filter_eq_self]
    intro p hp
    obtain ⟨s, n, _, rfl⟩ := offSuffix_mem hp
    simp [h]
  · rename_i h
    rw [List.filter_eq_nil_iff]
    intro p hp
    obtain ⟨s, n, _, rfl⟩ := offSuffix_mem hp
    simp [h]

theorem sufs_inj {a b : Int × Int × Int} (h : sufs a = sufs b) : a = b := by
  have hp : ∀ k, pick k (sufs a) = pick k (sufs b) := fun k => by rw [h]
  have happ : ∀ k (x y : List Str), pick k (x ++ y) = pick k x ++ pick k y := fun k x y => List.filter_append ..
  have h0 := hp '0'; have h1 := hp '1'; have h2 := hp '2'
  simp only [sufs, happ, pick_offSuffix] at h0 h1 h2
  simp at h0 h1 h2
  have := offSuffix_inj h0; have := offSuffix_inj h1; have := offSuffix_inj h2
  obtain ⟨a1, a2, a3⟩ := a; obtain ⟨b1, b2, b3⟩ := b
  simp_all

theorem sufStr_inj {a b : Int × Int × Int} (h : sufStr a = sufStr b) : a = b := by
  unfold sufStr at h
  by_cases ha : sufs a = [] <;> by_cases hb : sufs b = []
  · exact sufs_inj (ha.trans hb.symm)
  · rw [if_pos ha, if_neg hb] at h; cases h
  · rw [if_neg ha, if_pos hb] at h; cases h
  · rw [if_neg ha, if_neg hb] at h
    have h := (List.cons.inj h).2
    have := congrArg (split1 '_') h
    rw [split1_joinWith _ _ ha (sufs_no_us a), split1_joinWith _ _ hb (sufs_no_us b)] at this
    exact sufs_inj this

/-- **C20**: distinct offsets of one gridfunction get distinct names, and a name is always produced for
a nonempty gridfunction name. -/
theorem C20_distinct_offsets (gf : Str) (hgf : gf ≠ []) (a b : Int × Int × Int) :
    ∃ n m, fdTempName gf a.1 a.2.1 a.2.2 = .ok n ∧ fdTempName gf b.1 b.2.1 b.2.2 = .ok m ∧ (n = m → a = b) ∧
      fdTempName gf 0 0 0 = .ok gf := by
  refine ⟨_, _, fdTempName_eq gf a hgf, fdTempName_eq gf b hgf, ?_, ?_⟩
  · intro h
    exact sufStr_inj (List.append_cancel_left h)
  · have := fdTempName_eq gf (0, 0, 0) hgf
    simpa [sufStr, sufs, offSuffix] using this

/-- The three strings that begin an offset suffix. -/
def offsetMarks : List Str := [(c% "_i0"), (c% "_i1"), (c% "_i2")]

theorem sufStr_shape (a : Int × Int × Int) : sufStr a = [] ∨ ∃ k r, ('_' :: 'i' :: k :: []) ∈ offsetMarks ∧
    k ≠ '_' ∧ sufStr a = '_' :: 'i' :: k :: r := by
  unfold sufStr
  by_cases h : sufs a = []
  · exact .inl (if_pos h)
  · right
    rw [if_neg h]
    have : ∃ p ps, sufs a = p :: ps := by cases hs : sufs a with
      | nil => exact absurd hs h
      | cons p ps => exact ⟨p, ps, rfl⟩
    obtain ⟨p, ps, hps⟩ := this
    have hp : p ∈ sufs a := by rw [hps]; simp
    have : ∃ k, (['_', 'i', k]) ∈ offsetMarks ∧ k ≠ '_' ∧ ∃ o, p ∈ offSuffix k o := by
      simp only [sufs, List.mem_append] at hp
      rcases hp with (h | h) | h
      · exact ⟨'0', by decide, by decide, _, h⟩
      · exact ⟨'1', by decide, by decide, _, h⟩
      · exact ⟨'2', by decide, by decide, _, h⟩
    obtain ⟨k, hk, hk2, o, ho⟩ := this
    obtain ⟨s, n, _, rfl⟩ := offSuffix_mem ho
    rw [hps]
    cases ps with
    | nil => exact ⟨k, _, hk, hk2, rfl⟩
    | cons q qs => exact ⟨k, _, hk, hk2, rfl⟩

theorem cross_aux (g h : Str) (a b : Int × Int × Int) (hh : ∀ m ∈ offsetMarks, ¬ m <:+: h)
    (m : Str) (h1 : h = g ++ m) (h2 : sufStr a = m ++ sufStr b) : m = [] := by
  rcases sufStr_shape a with ha | ⟨k, r, hk, hk2, ha⟩
  · rw [ha] at h2; exact (List.append_eq_nil_iff.mp h2.symm).1
  · rw [ha] at h2
    match m, h2 with
    | [], _ => rfl
    | [x], h2 =>
      exfalso
      simp only [List.cons_append, List.nil_append, List.cons.injEq] at h2
      rcases sufStr_shape b with hb | ⟨_, _, _, _, hb⟩
      · rw [hb] at h2; simp at h2
      · rw [hb] at h2; simp at h2
    | [x, y], h2 =>
      exfalso
      simp only [List.cons_append, List.nil_append, List.cons.injEq] at h2
      rcases sufStr_shape b with hb | ⟨_, _, _, _, hb⟩
      · rw [hb] at h2; simp at h2
      · rw [hb] at h2; simp only [List.cons.injEq] at h2; exact hk2 h2.2.2.1
    | x :: y :: z :: t, h2 =>
      exfalso
      simp only [List.cons_append, List.cons.injEq] at h2
      obtain ⟨rfl, rfl, rfl, _⟩ := h2
      exact hh _ hk ⟨g, t, by rw [h1]; simp⟩

/-- **C20** across gridfunctions: names are distinct for distinct (gridfunction, offset) pairs, provided
no gridfunction name itself contains `_i0`, `_i1` or `_i2`. -/
theorem C20_distinct_gridfunctions (g h : Str) (a b : Int × Int × Int) (n : Str)
    (hg : ∀ m ∈ offsetMarks, ¬ m <:+: g) (hh : ∀ m ∈ offsetMarks, ¬ m <:+: h)
    (h1 : fdTempName g a.1 a.2.1 a.2.2 = .ok n) (h2 : fdTempName h b.1 b.2.1 b.2.2 = .ok n) : g = h ∧ a = b := by
  have g0 : g ≠ [] := by rintro rfl; simp [fdTempName] at h1
  have h0 : h ≠ [] := by rintro rfl; simp [fdTempName] at h2
  rw [fdTempName_eq g a g0] at h1
  rw [fdTempName_eq h b h0] at h2
  have e : g ++ sufStr a = h ++ sufStr b := (Except.ok.inj h1).trans (Except.ok.inj h2).symm
  rcases List.append_eq_append_iff.mp e with ⟨m, e1, e2⟩ | ⟨m, e1, e2⟩
  · have := cross_aux g h a b hh m e1 e2
    subst this
    simp only [List.append_nil, List.nil_append] at e1 e2
    exact ⟨e1.symm, sufStr_inj e2⟩
  · have := cross_aux h g b a hg m e1 e2
    subst this
    simp only [List.append_nil, List.nil_append] at e1 e2
    exact ⟨e1, (sufStr_inj e2).symm⟩

/-- Without that proviso the names can collide. -/
theorem C20_collision : fdTempName (c% "u") 1 0 0 = .ok (c% "u_i0p1") ∧
    fdTempName (c% "u_i0p1") 0 0 0 = .ok (c% "u_i0p1") := by
  constructor <;> rfl

example : fdTempName (c% "hDD00") (-2) 0 (-1) = .ok (c% "hDD00_i0m2_i2m1") := rfl
example : ∀ m ∈ offsetMarks, ¬ m <:+: (c% "hDD00") := by decide

/-! ## C22 -/

theorem takeWhile_all_append {α} (p : α → Bool) (l m : List α) (h : ∀ x ∈ l, p x = true) :
    (l ++ m).takeWhile p = l ++ m.takeWhile p := by
  induction l with
  | nil => rfl
  | cons a l ih => simp [h a (by simp), ih (fun x hx => h x (by simp [hx]))]

theorem trailingDigits_append (s : Str) (c : Char) (d : Str) (hc : c.isDigit = false)
    (hd : ∀ x ∈ d, x.isDigit = true) : trailingDigits (s ++ c :: d) = d.length := by
  unfold trailingDigits
  have : (s ++ c :: d).reverse = d.reverse ++ c :: s.reverse := by simp
  rw [this, takeWhile_all_append _ _ _ (by intro x hx; exact hd x (by simpa using hx))]
  simp [hc]

theorem rfind_append (s t : Str) (ht : '_' ∉ t) : rfind '_' (s ++ '_' :: t) = some s.length := by
  unfold rfind
  have : (s ++ '_' :: t).reverse = t.reverse ++ '_' :: s.reverse := by simp
  have hlen : ((s ++ '_' :: t).reverse.takeWhile (· ≠ '_')).length = t.length := by
    rw [this, takeWhile_all_append _ _ _ (by
      intro x hx
      have : x ∈ t := by simpa using hx
      simp only [ne_eq, decide_not, Bool.not_eq_eq_eq_not, Bool.not_true, decide_eq_false_iff_not]
      rintro rfl; exact ht this)]
    simp
  simp only [hlen]
  rw [if_pos (by simp; omega)]
  congr 1
  simp

theorem digits_no {d : Str} (h : ∀ x ∈ d, x.isDigit = true) {c : Char} (hc : c.isDigit = false) : c ∉ d := by
  intro hm; rw [h c hm] at hc; cases hc

/-- The documented form of a derivative symbol: stem, tensor index letters, underscore, operator,
component digits, direction digits. -/
structure DerivName where
  stem : Str
  ud : Str
  op : Str
  comps : Str
  dirs : Str

/-- The symbol's name. -/
def DerivName.name (d : DerivName) : Str := d.stem ++ d.ud ++ '_' :: (d.op ++ d.comps ++ d.dirs)
/-- The base gridfunction's name, e.g. `hDD01` for `hDD_dD012`. -/
def DerivName.base (d : DerivName) : Str := d.stem ++ d.ud ++ d.comps
/-- The operator with its directions, e.g. `dD2` for `hDD_dD012`. -/
def DerivName.operator (d : DerivName) : Str := d.op ++ d.dirs

/-- Well-formedness: index letters are `U`/`D`, one component digit for each; the operator has no
underscore, no `U`, ends in `D`, with one direction digit for every `D` in it. -/
structure DerivName.Shape (d : DerivName) : Prop where
  ud : ∀ c ∈ d.ud, c = 'U' ∨ c = 'D'
  op_us : '_' ∉ d.op
  op_U : 'U' ∉ d.op
  op_end : ∃ o, d.op = o ++ ['D']
  comps : ∀ c ∈ d.comps, c.isDigit = true
  comps_len : d.comps.length = d.ud.length
  dirs : ∀ c ∈ d.dirs, c.isDigit = true
  dirs_len : d.dirs.length = d.op.count 'D'

theorem ud_count (ud : Str) (h : ∀ c ∈ ud, c = 'U' ∨ c = 'D') : ud.count 'D' + ud.count 'U' = ud.length := by
  induction ud with
  | nil => rfl
  | cons c l ih =>
    have := ih (fun x hx => h x (by simp [hx]))
    rcases h c (by simp) with rfl | rfl <;> simp <;> omega

theorem name_counts (d : DerivName) (h : d.Shape) :
    d.name.count 'D' + d.name.count 'U' = d.stem.count 'D' + d.stem.count 'U' + trailingDigits d.name := by
  obtain ⟨o, ho⟩ := h.op_end
  have h1 : trailingDigits d.name = d.comps.length + d.dirs.length := by
    have : d.name = (d.stem ++ d.ud ++ '_' :: o) ++ 'D' :: (d.comps ++ d.dirs) := by
      simp [DerivName.name, ho]
    rw [this, trailingDigits_append _ _ _ (by decide)]
    · simp
    · intro x hx
      rcases List.mem_append.mp hx with hx | hx
      · exact h.comps x hx
      · exact h.dirs x hx
  have hz : ∀ (c : Char) (l : Str), c ∉ l → l.count c = 0 := fun c l => List.count_eq_zero.mpr
  have e1 := hz 'D' d.comps (digits_no h.comps (by decide))
  have e2 := hz 'U' d.comps (digits_no h.comps (by decide))
  have e3 := hz 'D' d.dirs (digits_no h.dirs (by decide))
  have e4 := hz 'U' d.dirs (digits_no h.dirs (by decide))
  have e5 := hz 'U' d.op h.op_U
  have e6 := ud_count d.ud h.ud
  have e7 := h.comps_len
  have e8 := h.dirs_len
  rw [h1]
  simp only [DerivName.name, List.count_append, List.count_cons, e1, e2, e3, e4, e5]
  simp
  omega

theorem slice_append (a b c : Str) : slice (a ++ b ++ c) a.length (a.length + b.length) = b := by
  unfold slice
  rw [List.append_assoc, ← List.append_assoc a b c]
  rw [show a.length + b.length = (a ++ b).length by simp, List.take_left, List.drop_left]

/-- **C22**: for every symbol of the documented form whose stem contains no `U` or `D`, the extraction
recovers the base gridfunction's name and the operator. -/
theorem C22_split (d : DerivName) (h : d.Shape) (hD : 'D' ∉ d.stem) (hU : 'U' ∉ d.stem) :
    splitDeriv d.name = .ok (d.base, d.operator) := by
  have hc := name_counts d h
  rw [List.count_eq_zero.mpr hD, List.count_eq_zero.mpr hU] at hc
  have htail : '_' ∉ d.op ++ d.comps ++ d.dirs := by
    simp only [List.mem_append, not_or]
    exact ⟨⟨h.op_us, digits_no h.comps (by decide)⟩, digits_no h.dirs (by decide)⟩
  have hr : rfind '_' d.name = some (d.stem ++ d.ud).length := by
    rw [DerivName.name]; exact rfind_append _ _ htail
  unfold splitDeriv
  rw [if_neg (by omega)]
  simp only [hr]
  have htake : d.name.take (d.stem ++ d.ud).length = d.stem ++ d.ud := by
    rw [DerivName.name, List.take_left]
  have hdrop : d.name.drop ((d.stem ++ d.ud).length + 1) = d.op ++ d.comps ++ d.dirs := by
    rw [DerivName.name, ← List.drop_drop, List.drop_left]; rfl
  have hrank : ((d.stem ++ d.ud).reverse.takeWhile (fun c => c = 'U' || c = 'D')).length = d.comps.length := by
    rw [List.reverse_append, takeWhile_all_append _ _ _ (by
      intro x hx
      rcases h.ud x (by simpa using hx) with rfl | rfl <;> decide)]
    have : d.stem.reverse.takeWhile (fun c => c = 'U' || c = 'D') = [] := by
      cases hs : d.stem.reverse with
      | nil => rfl
      | cons x l =>
        have hx : x ∈ d.stem := by
          have : x ∈ d.stem.reverse := by rw [hs]; simp
          simpa using this
        have h1 : x ≠ 'U' := by rintro rfl; exact hU hx
        have h2 : x ≠ 'D' := by rintro rfl; exact hD hx
        simp [h1, h2]
    rw [this]; simp [h.comps_len]
  have horder : (d.op ++ d.comps ++ d.dirs).count 'D' = d.dirs.length := by
    rw [List.count_append, List.count_append, List.count_eq_zero.mpr (digits_no h.comps (by decide)),
      List.count_eq_zero.mpr (digits_no h.dirs (by decide)), h.dirs_len]
    simp
  rw [htake, hdrop, hrank, horder]
  have hlen : d.name.length = (d.stem ++ d.ud).length + 1 + d.op.length + d.comps.length + d.dirs.length := by
    simp [DerivName.name]; omega
  have e1 : d.name.length - d.dirs.length - d.comps.length = (d.stem ++ d.ud ++ ['_'] ++ d.op).length := by
    rw [hlen]; simp; omega
  have e2 : d.name.length - d.dirs.length = (d.stem ++ d.ud ++ ['_'] ++ d.op).length + d.comps.length := by
    rw [hlen]; simp; omega
  have n1 : d.name = (d.stem ++ d.ud ++ ['_'] ++ d.op) ++ d.comps ++ d.dirs := by simp [DerivName.name]
  have n2 : d.name = (d.stem ++ d.ud ++ ['_']) ++ d.op ++ (d.comps ++ d.dirs) := by simp [DerivName.name]
  have s1 : slice d.name (d.stem ++ d.ud ++ ['_'] ++ d.op).length
      ((d.stem ++ d.ud ++ ['_'] ++ d.op).length + d.comps.length) = d.comps := by
    conv => lhs; arg 1; rw [n1]
    exact slice_append _ _ _
  have s2 : slice d.name ((d.stem ++ d.ud).length + 1) (d.stem ++ d.ud ++ ['_'] ++ d.op).length = d.op := by
    conv => lhs; arg 1; rw [n2]
    have a1 : (d.stem ++ d.ud).length + 1 = (d.stem ++ d.ud ++ ['_']).length := by simp; omega
    have a2 : (d.stem ++ d.ud ++ ['_'] ++ d.op).length = (d.stem ++ d.ud ++ ['_']).length + d.op.length := by simp; omega
    rw [a1, a2]
    exact slice_append _ _ _
  have s3 : d.name.drop ((d.stem ++ d.ud ++ ['_'] ++ d.op).length + d.comps.length) = d.dirs := by
    conv => lhs; arg 2; rw [n1]
    rw [show (d.stem ++ d.ud ++ ['_'] ++ d.op).length + d.comps.length =
      ((d.stem ++ d.ud ++ ['_'] ++ d.op) ++ d.comps).length by simp; omega, List.drop_left]
  rw [e2, show (d.stem ++ d.ud ++ ['_'] ++ d.op).length + d.comps.length - d.comps.length =
    (d.stem ++ d.ud ++ ['_'] ++ d.op).length by omega, s1, s2, s3]
  rfl

/-- A stem with a `U` or `D` in it is rejected (the error message asks for another name). -/
theorem C22_rejects_stem (d : DerivName) (h : d.Shape) (hs : 'D' ∈ d.stem ∨ 'U' ∈ d.stem) :
    splitDeriv d.name = .error .typeError := by
  have hc := name_counts d h
  have : 0 < d.stem.count 'D' + d.stem.count 'U' := by
    rcases hs with hs | hs
    · have := List.count_pos_iff.mpr hs; omega
    · have := List.count_pos_iff.mpr hs; omega
  unfold splitDeriv
  rw [if_pos (by omega)]

/-- The whole list is split element by element, in order. -/
theorem C22_split_all (ds : List DerivName) (h : ∀ d ∈ ds, d.Shape ∧ 'D' ∉ d.stem ∧ 'U' ∉ d.stem) :
    splitDerivs (ds.map DerivName.name) = .ok (ds.map DerivName.base, ds.map DerivName.operator) := by
  have : (ds.map DerivName.name).mapM splitDeriv = .ok (ds.map fun d => (d.base, d.operator)) := by
    induction ds with
    | nil => rfl
    | cons d ds ih =>
      obtain ⟨h1, h2, h3⟩ := h d (by simp)
      rw [List.map_cons, List.mapM_cons, C22_split d h1 h2 h3, ih (fun d hd => h d (by simp [hd]))]
      rfl
  unfold splitDerivs
  rw [this]
  simp [bind, Except.bind, Function.comp_def]

def exampleDeriv : DerivName := ⟨(c% "h_rot"), (c% "DD"), (c% "dupD"), (c% "01"), (c% "2")⟩
example : exampleDeriv.Shape ∧ 'D' ∉ exampleDeriv.stem ∧ 'U' ∉ exampleDeriv.stem ∧
    exampleDeriv.name = (c% "h_rotDD_dupD012") := by
  refine ⟨⟨by decide, by decide, by decide, ⟨(c% "dup"), rfl⟩, by decide, rfl, by decide, by decide⟩, by decide, by decide, rfl⟩
example : splitDeriv (c% "hDD_dDD0112") = .ok ((c% "hDD01"), (c% "dDD12")) := rfl

/-! ## C21 -/

theorem mapM_ok {α β ε} (f : α → Except ε β) (g : α → β) (l : List α) (h : ∀ x ∈ l, f x = .ok (g x)) :
    l.mapM f = .ok (l.map g) := by
  induction l with
  | nil => rfl
  | cons a l ih =>
    rw [List.mapM_cons, h a (by simp), ih (fun x hx => h x (by simp [hx]))]; rfl

def pt3 (coord : List Int) : Int × Int × Int := (coord.getD 0 0, coord.getD 1 0, coord.getD 2 0)
def ptS (p : Int × Int × Int) : Str := intStr p.1 ++ ',' :: (intStr p.2.1 ++ ',' :: intStr p.2.2)

theorem pointStr_eq (coord : List Int) (h : coord.length = 3) : pointStr coord = .ok (ptS (pt3 coord)) := by
  match coord, h with
  | [a, b, c], _ => rfl

theorem parsePoint_ptS (p : Int × Int × Int) : parsePoint (ptS p) = .ok p := by
  have : split1 ',' (ptS p) = [intStr p.1, intStr p.2.1, intStr p.2.2] := by
    unfold ptS
    rw [split1_append_sep _ _ _ (comma_not_mem_intStr _), split1_append_sep _ _ _ (comma_not_mem_intStr _),
      split1_of_not_mem _ _ (comma_not_mem_intStr _)]
  unfold parsePoint
  rw [this]
  simp only [parseInt_intStr]

theorem ptS_inj {p q : Int × Int × Int} (h : ptS p = ptS q) : p = q := by
  have := congrArg parsePoint h
  rw [parsePoint_ptS, parsePoint_ptS] at this
  exact Except.ok.inj this

theorem uniqFrom_map {α β} [DecidableEq α] [DecidableEq β] (f : α → β) (hf : ∀ {a b}, f a = f b → a = b)
    (l seen : List α) : uniqFrom (seen.map f) (l.map f) = (uniqFrom seen l).map f := by
  induction l generalizing seen with
  | nil => rfl
  | cons a l ih =>
    have hm : f a ∈ seen.map f ↔ a ∈ seen := by
      rw [List.mem_map]
      exact ⟨fun ⟨b, hb, e⟩ => by rw [← hf e]; exact hb, fun h => ⟨a, h, rfl⟩⟩
    rw [List.map_cons, uniqFrom, uniqFrom]
    by_cases ha : a ∈ seen
    · rw [if_pos ha, if_pos (hm.mpr ha), ih]
    · rw [if_neg ha, if_neg (fun h => ha (hm.mp h)), List.map_cons, ← ih (a :: seen), List.map_cons]

theorem insertKey_map {α β} (f : α → β) (x : Int × α) (l : List (Int × α)) :
    insertKey (x.1, f x.2) (l.map fun y => (y.1, f y.2)) = (insertKey x l).map fun y => (y.1, f y.2) := by
  induction l with
  | nil => rfl
  | cons y l ih =>
    rw [List.map_cons, insertKey, insertKey]
    split
    · rfl
    · rw [List.map_cons, ih]

theorem sortKey_map {α β} (f : α → β) (l : List (Int × α)) :
    sortKey (l.map fun y => (y.1, f y.2)) = (sortKey l).map fun y => (y.1, f y.2) := by
  induction l with
  | nil => rfl
  | cons y l ih =>
    unfold sortKey at *
    rw [List.map_cons, List.foldr_cons, List.foldr_cons, ih, insertKey_map f y]

theorem insertKey_perm {α} (x : Int × α) (l : List (Int × α)) : (insertKey x l).Perm (x :: l) := by
  induction l with
  | nil => exact .refl _
  | cons y l ih =>
    rw [insertKey]
    split
    · exact .refl _
    · exact (ih.cons y).trans (.swap ..)

theorem sortKey_perm {α} (l : List (Int × α)) : (sortKey l).Perm l := by
  induction l with
  | nil => exact .refl _
  | cons y l ih => exact (insertKey_perm y _).trans (ih.cons y)

theorem insertKey_sorted {α} (x : Int × α) (l : List (Int × α)) (h : l.Pairwise (fun a b => a.1 ≤ b.1)) :
    (insertKey x l).Pairwise (fun a b => a.1 ≤ b.1) := by
  induction l with
  | nil => simp [insertKey]
  | cons y l ih =>
    rw [List.pairwise_cons] at h
    rw [insertKey]
    split
    · rename_i hxy
      refine List.pairwise_cons.mpr ⟨?_, List.pairwise_cons.mpr h⟩
      intro b hb
      rcases List.mem_cons.mp hb with rfl | hb
      · exact hxy
      · have := h.1 b hb; omega
    · refine List.pairwise_cons.mpr ⟨?_, ih h.2⟩
      intro b hb
      rcases List.mem_cons.mp ((insertKey_perm x l).mem_iff.mp hb) with rfl | hb
      · omega
      · exact h.1 b hb

theorem sortKey_sorted {α} (l : List (Int × α)) : (sortKey l).Pairwise (fun a b => a.1 ≤ b.1) := by
  induction l with
  | nil => simp [sortKey]
  | cons y l ih => exact insertKey_sorted y _ ih

theorem insertStr_perm (x : Str) (l : List Str) : (insertStr x l).Perm (x :: l) := by
  induction l with
  | nil => exact .refl _
  | cons y l ih =>
    rw [insertStr]
    split
    · exact .refl _
    · exact (ih.cons y).trans (.swap ..)

theorem sortedStr_perm (l : List Str) : (sortedStr l).Perm l := by
  induction l with
  | nil => exact .refl _
  | cons y l ih => exact (insertStr_perm y _).trans (ih.cons y)

/-- Memory order of two offsets: with style "210" the first index runs fastest, with "012" the last. -/
def memBefore (style : Str) (p q : Int × Int × Int) : Prop :=
  if style = (c% "210") then
    p.2.2 < q.2.2 ∨ (p.2.2 = q.2.2 ∧ (p.2.1 < q.2.1 ∨ (p.2.1 = q.2.1 ∧ p.1 < q.1)))
  else
    p.1 < q.1 ∨ (p.1 = q.1 ∧ (p.2.1 < q.2.1 ∨ (p.2.1 = q.2.1 ∧ p.2.2 < q.2.2)))

/-- Specification: gridpoint `pt` of `gf` is needed by a requested derivative or by `gf` itself. -/
def Needed (derivs : List (Str × List (List Int))) (free : List Str) (gf : Str) (pt : Int × Int × Int) : Prop :=
  (∃ st, (gf, st) ∈ derivs ∧ [pt.1, pt.2.1, pt.2.2] ∈ st) ∨ (pt = (0, 0, 0) ∧ gf ∈ free)

def keyOf (style : Str) (p : Int × Int × Int) : Int :=
  if style = (c% "210") then (p.1 + 50) + 100 * ((p.2.1 + 50) + 100 * (p.2.2 + 50))
  else (p.2.2 + 50) + 100 * ((p.2.1 + 50) + 100 * (p.1 + 50))

theorem uniqueIdx_eq (style : Str) (h : style = (c% "210") ∨ style = (c% "012")) (p) :
    uniqueIdx style p = .ok (keyOf style p) := by
  rcases h with rfl | rfl <;> rfl

def rawPts (derivs : List (Str × List (List Int))) (free : List Str) (gf : Str) : List (Int × Int × Int) :=
  ((derivs.filter (fun d => d.1 = gf)).map fun d => d.2.map pt3).flatten ++
    (free.map fun v => if v = gf then [((0 : Int), (0 : Int), (0 : Int))] else []).flatten

theorem pt3_of (coord : List Int) (h : coord.length = 3) (p : Int × Int × Int) :
    pt3 coord = p ↔ coord = [p.1, p.2.1, p.2.2] := by
  match coord, h with
  | [a, b, c], _ =>
    obtain ⟨x, y, z⟩ := p
    simp [pt3]

theorem mem_rawPts (derivs : List (Str × List (List Int))) (free : List Str) (gf : Str) (p)
    (h3 : ∀ d ∈ derivs, ∀ c ∈ d.2, c.length = 3) :
    p ∈ rawPts derivs free gf ↔ Needed derivs free gf p := by
  unfold rawPts Needed
  rw [List.mem_append]
  apply or_congr
  · simp only [List.mem_flatten, List.mem_map, List.mem_filter]
    constructor
    · rintro ⟨_, ⟨d, ⟨hd, he⟩, rfl⟩, hp⟩
      obtain ⟨c, hc, rfl⟩ := List.mem_map.mp hp
      obtain ⟨g, st⟩ := d
      obtain rfl : g = gf := by simpa using he
      refine ⟨st, hd, ?_⟩
      rw [← (pt3_of c (h3 _ hd _ hc) _).mp rfl]
      exact hc
    · rintro ⟨st, hd, hp⟩
      refine ⟨st.map pt3, ⟨(gf, st), ⟨hd, by simp⟩, rfl⟩, ?_⟩
      exact List.mem_map.mpr ⟨_, hp, rfl⟩
  · simp only [List.mem_flatten, List.mem_map]
    constructor
    · rintro ⟨_, ⟨v, hv, rfl⟩, hp⟩
      split at hp
      · rename_i e; subst e
        exact ⟨by simpa using hp, hv⟩
      · simp at hp
    · rintro ⟨rfl, hf⟩
      exact ⟨_, ⟨gf, hf, rfl⟩, by simp⟩

theorem pointsOf_eq (gfs cps : List Str) (derivs : List (Str × List (List Int))) (free : List Str) (gf : Str)
    (hgf : gf ∈ gfs) (hk : ∀ v ∈ free, ¬ (v ∈ cps ∧ v ∈ gfs)) (h3 : ∀ d ∈ derivs, ∀ c ∈ d.2, c.length = 3) :
    pointsOf gfs cps derivs free gf = .ok ((rawPts derivs free gf).map ptS) := by
  have e1 : (derivs.filter (fun d => d.1 = gf)).mapM (fun d => d.2.mapM pointStr) =
      .ok ((derivs.filter (fun d => d.1 = gf)).map fun d => (d.2.map pt3).map ptS) := by
    apply mapM_ok
    intro d hd
    rw [List.map_map]
    exact mapM_ok _ _ _ fun c hc => pointStr_eq c (h3 d (List.mem_filter.mp hd).1 c hc)
  have e2 : (free.mapM fun v => do
      let k ← symKind gfs cps v
      (.ok (if k = SymKind.gridfunction ∧ v = gf then [(c% "0,0,0")] else []) : Except NameErr _)) =
      .ok (free.map fun v => (if v = gf then [((0 : Int), (0 : Int), (0 : Int))] else []).map ptS) := by
    apply mapM_ok
    intro v hv
    have hb := hk v hv
    unfold symKind
    rw [if_neg hb]
    by_cases he : v = gf
    · subst he
      rw [if_neg (fun h => hb ⟨h, hgf⟩), if_pos hgf]
      simp only [bind, Except.bind, and_self, if_true]
      rfl
    · simp only [he, and_false, if_false]
      split
      · rfl
      · split <;> rfl
  unfold pointsOf
  rw [e1, e2]
  simp only [bind, Except.bind, rawPts, List.map_append, List.map_flatten, List.map_map, Function.comp_def]

theorem readsOf_eq (style gf : Str) (hs : style = (c% "210") ∨ style = (c% "012")) (hgf : gf ≠ [])
    (P : List (Int × Int × Int)) :
    readsOf style gf (P.map ptS) =
      .ok ((sortKey ((superfastUniq P).map fun p => (keyOf style p, p))).map
        fun y => ⟨gf ++ sufStr y.2, gf, y.2⟩) := by
  have h1 : superfastUniq (P.map ptS) = (superfastUniq P).map ptS := by
    have := uniqFrom_map ptS (fun h => ptS_inj h) P []
    simpa [superfastUniq] using this
  have h2 : sortPoints style ((superfastUniq P).map ptS) =
      .ok ((sortKey ((superfastUniq P).map fun p => (keyOf style p, p))).map fun y => ptS y.2) := by
    have : ((superfastUniq P).map ptS).mapM (fun s => (do
        let p ← parsePoint s
        let k ← uniqueIdx style p
        .ok (k, s) : Except NameErr (Int × Str))) =
        .ok (((superfastUniq P).map fun p => (keyOf style p, p)).map fun y => (y.1, ptS y.2)) := by
      induction superfastUniq P with
      | nil => rfl
      | cons a l ih =>
        rw [List.map_cons, List.mapM_cons, ih, parsePoint_ptS]
        simp only [bind, Except.bind, uniqueIdx_eq style hs]
        rfl
    unfold sortPoints
    rw [this]
    simp only [bind, Except.bind]
    rw [sortKey_map, List.map_map]
    rfl
  unfold readsOf
  rw [h1, h2]
  simp only [bind, Except.bind]
  generalize sortKey ((superfastUniq P).map fun p => (keyOf style p, p)) = L
  induction L with
  | nil => rfl
  | cons a l ih =>
    rw [List.map_cons, List.mapM_cons, ih, parsePoint_ptS]
    simp only [bind, Except.bind]
    rw [fdTempName_eq gf a.2 hgf]
    rfl

/-- **C21**: for every registry, every set of requested stencils and free symbols, the generated reads
declare exactly the needed points of the registered gridfunctions, each once, under the name that the
finite-difference expressions use; within one gridfunction, offsets below fifty are read in the order
of memory. -/
theorem C21_reads (gfs cps : List Str) (style : Str) (derivs : List (Str × List (List Int))) (free : List Str)
    (hs : style = (c% "210") ∨ style = (c% "012")) (hne : gfs ≠ []) (hnd : gfs.Nodup) (hnames : [] ∉ gfs)
    (hk : ∀ v ∈ free, ¬ (v ∈ cps ∧ v ∈ gfs)) (h3 : ∀ d ∈ derivs, ∀ c ∈ d.2, c.length = 3) :
    ∃ rs, readGfs gfs cps style derivs free = .ok rs ∧
      (∀ gf pt, (∃ r ∈ rs, r.gf = gf ∧ r.pt = pt) ↔ gf ∈ gfs ∧ Needed derivs free gf pt) ∧
      (rs.map fun r => (r.gf, r.pt)).Nodup ∧
      (∀ r ∈ rs, fdTempName r.gf r.pt.1 r.pt.2.1 r.pt.2.2 = .ok r.var) ∧
      ((∀ r ∈ rs, -50 < r.pt.1 ∧ r.pt.1 < 50 ∧ -50 < r.pt.2.1 ∧ r.pt.2.1 < 50 ∧ -50 < r.pt.2.2 ∧ r.pt.2.2 < 50) →
        rs.Pairwise (fun r r' => r.gf = r'.gf → memBefore style r.pt r'.pt)) := by
  have hg0 : ∀ gf ∈ gfs, gf ≠ [] := fun gf hgf e => hnames (e ▸ hgf)
  let sp : Str → List (Int × (Int × Int × Int)) := fun gf =>
    sortKey ((superfastUniq (rawPts derivs free gf)).map fun p => (keyOf style p, p))
  let blk : Str → List Read := fun gf => (sp gf).map fun y => ⟨gf ++ sufStr y.2, gf, y.2⟩
  have hrun : readGfs gfs cps style derivs free = .ok ((sortedStr gfs).map blk).flatten := by
    have : (sortedStr gfs).mapM (fun gf => (do
        let pts ← pointsOf gfs cps derivs free gf
        readsOf style gf pts : Except NameErr (List Read))) = .ok ((sortedStr gfs).map blk) := by
      apply mapM_ok
      intro gf hgf
      have hgf := (mem_sortedStr gf gfs).mp hgf
      rw [pointsOf_eq gfs cps derivs free gf hgf hk h3]
      simp only [bind, Except.bind]
      exact readsOf_eq style gf hs (hg0 gf hgf) _
    unfold readGfs
    rw [if_neg hne, this]
    rfl
  have hsp_mem : ∀ gf p, (∃ y ∈ sp gf, y.2 = p) ↔ Needed derivs free gf p := by
    intro gf p
    rw [← mem_rawPts derivs free gf p h3, ← (C29_superfast_uniq (rawPts derivs free gf)).mem p]
    constructor
    · rintro ⟨y, hy, rfl⟩
      have := (sortKey_perm _).mem_iff.mp hy
      obtain ⟨q, hq, rfl⟩ := List.mem_map.mp this
      exact hq
    · intro hp
      exact ⟨(keyOf style p, p), (sortKey_perm _).mem_iff.mpr (List.mem_map.mpr ⟨p, hp, rfl⟩), rfl⟩
  have hsp_nodup : ∀ gf, ((sp gf).map (·.2)).Nodup := by
    intro gf
    have hp := (sortKey_perm ((superfastUniq (rawPts derivs free gf)).map fun p => (keyOf style p, p))).map (·.2)
    refine hp.nodup_iff.mpr ?_
    rw [List.map_map]
    have : ((fun x => x.2) ∘ fun p : Int × Int × Int => (keyOf style p, p)) = id := rfl
    rw [this, List.map_id]
    exact (C29_superfast_uniq _).nodup
  have hsp_key : ∀ gf, ∀ y ∈ sp gf, y.1 = keyOf style y.2 := by
    intro gf y hy
    have := (sortKey_perm _).mem_iff.mp hy
    obtain ⟨q, hq, rfl⟩ := List.mem_map.mp this
    rfl
  have hsorted_nd : (sortedStr gfs).Nodup := (sortedStr_perm gfs).nodup_iff.mpr hnd
  have hmem : ∀ r, r ∈ ((sortedStr gfs).map blk).flatten ↔
      ∃ gf ∈ gfs, ∃ y ∈ sp gf, r = ⟨gf ++ sufStr y.2, gf, y.2⟩ := by
    intro r
    simp only [List.mem_flatten, List.mem_map]
    constructor
    · rintro ⟨_, ⟨gf, hgf, rfl⟩, hr⟩
      obtain ⟨y, hy, rfl⟩ := List.mem_map.mp hr
      exact ⟨gf, (mem_sortedStr gf gfs).mp hgf, y, hy, rfl⟩
    · rintro ⟨gf, hgf, y, hy, rfl⟩
      exact ⟨_, ⟨gf, (mem_sortedStr gf gfs).mpr hgf, rfl⟩, List.mem_map.mpr ⟨y, hy, rfl⟩⟩
  refine ⟨_, hrun, ?_, ?_, ?_, ?_⟩
  · intro gf pt
    rw [← hsp_mem]
    constructor
    · rintro ⟨r, hr, rfl, rfl⟩
      obtain ⟨gf, hgf, y, hy, rfl⟩ := (hmem r).mp hr
      exact ⟨hgf, y, hy, rfl⟩
    · rintro ⟨hgf, y, hy, rfl⟩
      exact ⟨⟨gf ++ sufStr y.2, gf, y.2⟩, (hmem _).mpr ⟨gf, hgf, y, hy, rfl⟩, rfl, rfl⟩
  · rw [List.map_flatten, List.map_map]
    rw [List.nodup_flatten]
    refine ⟨?_, ?_⟩
    · intro l hl
      obtain ⟨gf, hgf, rfl⟩ := List.mem_map.mp hl
      have := (hsp_nodup gf).map (f := fun p => (gf, p)) (fun a b h => (Prod.mk.inj h).2)
      simpa [blk, Function.comp_def] using this
    · rw [List.pairwise_map]
      refine hsorted_nd.imp ?_
      intro a b hab
      rw [Function.comp, Function.comp, List.disjoint_left]
      rintro x hx hx'
      obtain ⟨r, hr, rfl⟩ := List.mem_map.mp hx
      obtain ⟨r', hr', e⟩ := List.mem_map.mp hx'
      obtain ⟨y, hy, rfl⟩ := List.mem_map.mp hr
      obtain ⟨y', hy', rfl⟩ := List.mem_map.mp hr'
      exact hab (Prod.mk.inj e).1.symm
  · intro r hr
    obtain ⟨gf, hgf, y, hy, rfl⟩ := (hmem r).mp hr
    exact fdTempName_eq gf y.2 (hg0 gf hgf)
  · intro hb
    rw [List.pairwise_flatten]
    constructor
    · intro l hl
      obtain ⟨gf, hgf, rfl⟩ := List.mem_map.mp hl
      have hgf' := (mem_sortedStr gf gfs).mp hgf
      show ((sp gf).map _).Pairwise _
      rw [List.pairwise_map]
      have hpw := (sortKey_sorted ((superfastUniq (rawPts derivs free gf)).map fun p => (keyOf style p, p))).and
        (List.pairwise_map.mp (hsp_nodup gf))
      refine hpw.imp_of_mem ?_
      intro y y' hy hy' hle _
      have b1 := hb _ ((hmem ⟨gf ++ sufStr y.2, gf, y.2⟩).mpr ⟨gf, hgf', y, hy, rfl⟩)
      have b2 := hb _ ((hmem ⟨gf ++ sufStr y'.2, gf, y'.2⟩).mpr ⟨gf, hgf', y', hy', rfl⟩)
      have k1 := hsp_key gf y hy
      have k2 := hsp_key gf y' hy'
      have hle1 := hle.1
      have hne2 := hle.2
      rw [k1, k2] at hle1
      obtain ⟨_, p1, p2, p3⟩ := y
      obtain ⟨_, q1, q2, q3⟩ := y'
      simp only [ne_eq, Prod.mk.injEq, not_and] at hne2
      simp only at b1 b2
      unfold memBefore
      unfold keyOf at hle1
      split
      · rename_i e
        rw [if_pos e, if_pos e] at hle1
        simp only at hle1 ⊢
        omega
      · rename_i e
        rw [if_neg e, if_neg e] at hle1
        simp only at hle1 ⊢
        omega
    · rw [List.pairwise_map]
      refine hsorted_nd.imp ?_
      intro a b hab r hr r' hr' e
      obtain ⟨y, hy, rfl⟩ := List.mem_map.mp hr
      obtain ⟨y', hy', rfl⟩ := List.mem_map.mp hr'
      exact absurd e hab

/-- A symbol registered both as gridfunction and as code parameter is refused. -/
theorem C21_both_kinds (gfs cps : List Str) (v : Str) (h1 : v ∈ cps) (h2 : v ∈ gfs) :
    symKind gfs cps v = .error .bothKinds := by
  simp [symKind, h1, h2]

/-- The text of one index in the memory access: `i0`, `i0+2`, `i0-2`. -/
theorem C21_index_text (k : Char) (hk : k ∈ ['0', '1', '2']) (o : Int) :
    idxStr k o = 'i' :: k :: (if o = 0 then [] else if o < 0 then '-' :: dec o.natAbs else '+' :: dec o.natAbs) := by
  unfold idxStr
  by_cases h0 : o = 0
  · simp [h0]
  · rw [if_pos h0, if_neg h0]
    have hk' : k ≠ '+' := by simp at hk; rcases hk with rfl | rfl | rfl <;> decide
    have hd : ∀ n, '+' ∉ dec n := fun n => not_mem_dec (by decide)
    have hrep : ∀ s : Str, '+' ∉ s → replaceAll (c% "+-") (c% "-") s = s := by
      intro s hs
      unfold replaceAll
      induction s with
      | nil => rfl
      | cons c s ih =>
        have hc : c ≠ '+' := by rintro rfl; simp at hs
        have hcs : '+' ∉ s := fun h => hs (by simp [h])
        rw [replaceAux]
        rw [if_neg (by simp [List.isPrefixOf, hc.symm]), ih hcs]
    have hcons : ∀ (c : Char) (s : Str), c ≠ '+' →
        replaceAll (c% "+-") (c% "-") (c :: s) = c :: replaceAll (c% "+-") (c% "-") s := by
      intro c s hc
      unfold replaceAll
      rw [replaceAux, if_neg (by simp [List.isPrefixOf, hc.symm])]
    rw [hcons _ _ (by decide), hcons _ _ hk']
    unfold intStr
    split
    · rename_i hneg
      have : replaceAll (c% "+-") (c% "-") ('+' :: '-' :: dec o.natAbs) = '-' :: dec o.natAbs := by
        have h := hrep (dec o.natAbs) (hd _)
        unfold replaceAll at h ⊢
        rw [replaceAux, if_pos (by simp [List.isPrefixOf])]
        simp [replaceAux, h]
      rw [this]
    · rename_i hneg
      have hne := dec_ne_nil o.natAbs
      have hm : '-' ∉ dec o.natAbs := not_mem_dec (by decide)
      have : replaceAll (c% "+-") (c% "-") ('+' :: dec o.natAbs) = '+' :: dec o.natAbs := by
        have h := hrep (dec o.natAbs) (hd _)
        unfold replaceAll at h ⊢
        rw [replaceAux, if_neg, h]
        cases hdd : dec o.natAbs with
        | nil => exact absurd hdd hne
        | cons c l =>
          rw [hdd] at hm
          have : c ≠ '-' := by rintro rfl; simp at hm
          simp [List.isPrefixOf, this.symm]
      rw [this]

example : readGfs [(c% "vU1"), (c% "hDD01")] [(c% "b")] (c% "210")
    [((c% "hDD01"), [[0, -1, 0], [0, 1, 0]]), ((c% "hDD01"), [[0, 1, 0], [0, 0, -2]])] [(c% "hDD01"), (c% "b"), (c% "vU1")] =
    .ok [⟨(c% "hDD01_i2m2"), (c% "hDD01"), (0, 0, -2)⟩, ⟨(c% "hDD01_i1m1"), (c% "hDD01"), (0, -1, 0)⟩,
      ⟨(c% "hDD01"), (c% "hDD01"), (0, 0, 0)⟩, ⟨(c% "hDD01_i1p1"), (c% "hDD01"), (0, 1, 0)⟩,
      ⟨(c% "vU1"), (c% "vU1"), (0, 0, 0)⟩] := rfl

end Verif.FD
