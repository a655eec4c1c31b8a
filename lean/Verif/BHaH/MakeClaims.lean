import Verif.BHaH.Make
import Verif.Grid.IndexProps
import Verif.FD.PipelineLemmas

/-!
# C116: what is built is the registered functions
-/
namespace Verif.BHaH.Make
open Verif.Py

/-! ## Specification -/

/-- The text that is compiled for a function: its C code, under the name with the prefix if there is one. -/
def wantedText (pre : Str) (f : Func) : Str := f.full (if pre = [] then f.cname else pre ++ f.key)

/-- The names of a project that cause no trouble: file names without slashes, an extension without dots and other than that of object files, the text
`.extension` nowhere in the paths except at the end, and a name for the executable that is not the name of a source or object file. -/
structure Fits (o : Opts) (fs : List Func) : Prop where
  some : fs ≠ []
  keys : (fs.map Func.key).Nodup
  noSlash : ∀ f ∈ fs, '/' ∉ f.key
  noSlashPre : '/' ∉ o.pre
  extDot : '.' ∉ o.ext
  extO : o.ext ≠ c% "o"
  once : ∀ f ∈ fs, ¬ ('.' :: o.ext) <:+: stem o.pre f
  exeSource : ∀ f ∈ fs, target o ≠ stem o.pre f ++ '.' :: o.ext
  exeObj : ∀ f ∈ fs, target o ≠ stem o.pre f ++ (c% ".o")

/-- No file is from the future. -/
def Dir.Past (d : Dir) : Prop := ∀ p f, d.files p = some f → f.time ≤ d.now

/-! ## Texts -/

/-- What follows the last `c`. -/
def lastPart (c : Char) (s : Str) : Str := (s.reverse.takeWhile (· ≠ c)).reverse

theorem lastPart_cons (c : Char) (a n : Str) (h : c ∉ n) : lastPart c (a ++ c :: n) = n := by
  unfold lastPart
  rw [List.reverse_append, List.reverse_cons, List.append_assoc, List.takeWhile_append_of_pos]
  · simp
  · intro x hx
    simp only [List.mem_reverse] at hx
    have : x ≠ c := fun e => h (e ▸ hx)
    simpa using this

theorem lastPart_self (c : Char) (n : Str) (h : c ∉ n) : lastPart c n = n := by
  unfold lastPart
  have := List.takeWhile_append_of_pos (p := fun x : Char => decide (x ≠ c)) (l₁ := n.reverse) (l₂ := []) (fun x hx => by
    simp only [List.mem_reverse] at hx
    have : x ≠ c := fun e => h (e ▸ hx)
    simpa using this)
  rw [List.append_nil, List.takeWhile_nil, List.append_nil] at this
  rw [this, List.reverse_reverse]

theorem noSlash_fileName {o : Opts} {fs : List Func} (h : Fits o fs) {f : Func} (hf : f ∈ fs) : '/' ∉ fileName o.pre f := by
  unfold fileName
  split
  · exact h.noSlash f hf
  · rw [List.mem_append]
    exact fun e => e.elim h.noSlashPre (h.noSlash f hf)

theorem lastPart_stem {o : Opts} {fs : List Func} (h : Fits o fs) {f : Func} (hf : f ∈ fs) : lastPart '/' (stem o.pre f) = fileName o.pre f := by
  unfold stem
  split
  · exact lastPart_self _ _ (noSlash_fileName h hf)
  · rw [List.append_assoc]
    exact lastPart_cons _ _ _ (noSlash_fileName h hf)

theorem stem_inj {o : Opts} {fs : List Func} (h : Fits o fs) {f g : Func} (hf : f ∈ fs) (hg : g ∈ fs) (e : stem o.pre f = stem o.pre g) : f = g := by
  have e1 : fileName o.pre f = fileName o.pre g := by rw [← lastPart_stem h hf, e, lastPart_stem h hg]
  have e2 : f.key = g.key := by
    unfold fileName at e1
    split at e1
    · exact e1
    · exact List.append_cancel_left e1
  exact List.inj_on_of_nodup_map h.keys hf hg e2

/-- The object file of a function. -/
def obj (o : Opts) (f : Func) : Str := stem o.pre f ++ (c% ".o")

theorem source_inj {o : Opts} {fs : List Func} (h : Fits o fs) {f g : Func} (hf : f ∈ fs) (hg : g ∈ fs) (e : source o f = source o g) : f = g :=
  stem_inj h hf hg (List.append_cancel_right e)

theorem obj_inj {o : Opts} {fs : List Func} (h : Fits o fs) {f g : Func} (hf : f ∈ fs) (hg : g ∈ fs) (e : obj o f = obj o g) : f = g :=
  stem_inj h hf hg (List.append_cancel_right e)

theorem source_ne_obj {o : Opts} {fs : List Func} (h : Fits o fs) (f g : Func) : source o f ≠ obj o g := by
  intro e
  have := congrArg (lastPart '.') e
  rw [source, obj, lastPart_cons _ _ _ h.extDot] at this
  refine h.extO (this.trans (lastPart_cons '.' _ (c% "o") (by decide)))

theorem replace_ext (ext s : Str) (hd : '.' ∉ ext) (h : ¬ ('.' :: ext) <:+: s) :
    replaceAll ('.' :: ext) (c% ".o") (s ++ '.' :: ext) = s ++ (c% ".o") := by
  have := FD.replaceAll_one ('.' :: ext) (c% ".o") s [] (by simp) ?_ (by simp)
  · simpa using this
  · intro i hi hp
    rw [List.append_nil, List.drop_append_of_le_length (le_of_lt hi)] at hp
    obtain ⟨w, hw⟩ := hp
    rcases List.append_eq_append_iff.mp hw with ⟨u, hu, _⟩ | ⟨v, hv, hv2⟩
    · exact h ((List.IsPrefix.isInfix ⟨u, hu.symm⟩).trans (List.drop_suffix i s).isInfix)
    · have hn : s.drop i ≠ [] := by
        intro e
        have := congrArg List.length e
        simp only [List.length_drop, List.length_nil] at this
        omega
      cases hx : s.drop i with
      | nil => exact hn hx
      | cons x u =>
        rw [hx, List.cons_append] at hv
        have he : ext = u ++ v := (List.cons.inj hv).2
        cases v with
        | nil =>
          refine h (List.IsInfix.trans (?_ : ('.' :: ext) <:+: s.drop i) (List.drop_suffix i s).isInfix)
          rw [hx, he, List.append_nil, (List.cons.inj hv).1]
        | cons y v =>
          rw [List.cons_append] at hv2
          refine hd (he ▸ ?_)
          rw [(List.cons.inj hv2).1]
          simp

theorem prerequisite_obj (o : Opts) (f : Func) : prerequisite o.ext (obj o f) = source o f := by
  unfold prerequisite obj source
  congr 1
  exact List.take_left' (by simp)

/-- A permutation of the images comes from a permutation. -/
theorem perm_of_map {α β : Type} (g : α → β) {l1 l2 : List β} (h : l1.Perm l2) : ∀ fs : List α, fs.map g = l1 →
    ∃ fs' : List α, fs'.Perm fs ∧ fs'.map g = l2 := by
  induction h with
  | nil => exact fun fs e => ⟨[], by rw [List.map_eq_nil_iff.mp e], rfl⟩
  | cons x _ ih =>
    intro fs e
    obtain ⟨a, t, rfl, rfl, e2⟩ := List.map_eq_cons_iff.mp e
    obtain ⟨t', p, e'⟩ := ih t e2
    exact ⟨a :: t', p.cons a, by rw [List.map_cons, e']⟩
  | swap x y l =>
    intro fs e
    obtain ⟨a, t, rfl, rfl, e2⟩ := List.map_eq_cons_iff.mp e
    obtain ⟨b, t, rfl, rfl, rfl⟩ := List.map_eq_cons_iff.mp e2
    exact ⟨b :: a :: t, .swap .., by simp⟩
  | trans _ _ ih1 ih2 =>
    intro fs e
    obtain ⟨f1, p1, e1⟩ := ih1 fs e
    obtain ⟨f2, p2, e2⟩ := ih2 f1 e1
    exact ⟨f2, p2.trans p1, e2⟩

/-! ## Writing the sources -/

theorem rename_text (pre : Str) (f : Func) : f.full (rename pre f).cname = wantedText pre f := by
  unfold rename wantedText
  split <;> rfl

theorem past_write {d : Dir} (hp : d.Past) (q b : Str) : (d.write q b).Past := by
  intro p x hx
  simp only [Dir.write, Function.update_apply] at hx ⊢
  split at hx
  · rw [← Option.some.inj hx]
  · exact (hp p x hx).trans (Nat.le_succ _)

theorem writeSources_spec (o : Opts) : ∀ (L : List Func) (d : Dir), (∀ f ∈ L, ∀ g ∈ L, source o f = source o g → f = g) → L.Nodup → d.Past →
    let d1 := writeSources o L d
    d1.headers = d.headers ∧ d.now ≤ d1.now ∧ d1.Past ∧ (∀ p, (∀ f ∈ L, p ≠ source o f) → d1.files p = d.files p) ∧
      ∀ f ∈ L, ∃ tm, d.now < tm ∧ d1.files (source o f) = some ⟨wantedText o.pre f, tm⟩
  | [], d, _, _, hp => ⟨rfl, le_refl _, hp, fun _ _ => rfl, fun f hf => absurd hf (by simp)⟩
  | f :: L, d, inj, nd, hp => by
    intro d1
    have hp' : (d.write (source o f) (f.full (rename o.pre f).cname)).Past := past_write hp _ _
    have ih := writeSources_spec o L (d.write (source o f) (f.full (rename o.pre f).cname))
      (fun a ha b hb => inj a (List.mem_cons_of_mem _ ha) b (List.mem_cons_of_mem _ hb)) (List.nodup_cons.mp nd).2 hp'
    obtain ⟨i1, i2, i3, i4, i5⟩ := ih
    have hd1 : d1 = writeSources o L (d.write (source o f) (f.full (rename o.pre f).cname)) := rfl
    rw [← hd1] at i1 i2 i3 i4 i5
    refine ⟨i1, (Nat.le_succ _).trans i2, i3, ?_, ?_⟩
    · intro p hne
      rw [i4 p fun g hg => hne g (List.mem_cons_of_mem _ hg)]
      simp only [Dir.write, Function.update_apply]
      exact if_neg (hne f List.mem_cons_self)
    · intro g hg
      rcases List.mem_cons.mp hg with rfl | hg
      · refine ⟨d.now + 1, Nat.lt_succ_self _, ?_⟩
        rw [i4 _ fun b hb e => (List.nodup_cons.mp nd).1 (by rw [inj g List.mem_cons_self b (List.mem_cons_of_mem _ hb) e]; exact hb)]
        simp only [Dir.write, Function.update_self, rename_text]
      · obtain ⟨tm, h1, h2⟩ := i5 g hg
        exact ⟨tm, (Nat.lt_succ_self _).trans h1, h2⟩

/-! ## Compiling the objects -/

/-- The directory is ready for the compilation of a list of functions: their sources are there and newer than their object files. -/
def Ready (o : Opts) (L : List Func) (d : Dir) : Prop :=
  ∀ f ∈ L, ∃ s : File, d.files (source o f) = some s ∧ s.bytes = wantedText o.pre f ∧ outdated (d.files (obj o f)) s = true

section
variable (t : Tools) (m : Makefile) (o : Opts)

/-- One compilation. -/
def ccOf (headers : Str) (f : Func) : Option Str := t.cc (usedCC t m) (usedFlags t m) headers (wantedText o.pre f)

theorem makeObj_ready (hm : m.ext = o.ext) {L : List Func} {d : Dir} (h : Ready o L d) {f : Func} (hf : f ∈ L) :
    makeObj t m d (obj o f) = match ccOf t m o d.headers f with
      | none => .error .called
      | some b => .ok (d.write (obj o f) b) := by
  obtain ⟨s, h1, h2, h3⟩ := h f hf
  unfold makeObj ccOf
  rw [hm, prerequisite_obj, h1]
  simp only [h3, if_true, h2]
  rfl

theorem ready_write (hne : ∀ f g : Func, source o f ≠ obj o g) {f : Func} {L : List Func} {d : Dir} (b : Str) (h : Ready o (f :: L) d)
    (hi : ∀ g ∈ L, obj o g ≠ obj o f) : Ready o L (d.write (obj o f) b) := by
  intro g hg
  obtain ⟨s, h1, h2, h3⟩ := h g (List.mem_cons_of_mem _ hg)
  refine ⟨s, ?_, h2, ?_⟩
  · simp only [Dir.write, Function.update_apply]
    rw [if_neg (hne g f), h1]
  · simp only [Dir.write, Function.update_apply]
    rw [if_neg (hi g hg), h3]

theorem loop_ok (hm : m.ext = o.ext) (hne : ∀ f g : Func, source o f ≠ obj o g) : ∀ (L : List Func) (d : Dir), Ready o L d → L.Nodup →
    (∀ f ∈ L, ∀ g ∈ L, obj o f = obj o g → f = g) → (∀ f ∈ L, (ccOf t m o d.headers f).isSome) →
    ∃ d', (L.map (obj o)).foldlM (makeObj t m) d = .ok d' ∧ (d.Past → d'.Past) ∧ d'.headers = d.headers ∧ d.now ≤ d'.now ∧
      (∀ p, (∀ f ∈ L, p ≠ obj o f) → d'.files p = d.files p) ∧
      ∀ f ∈ L, ∃ b tm, ccOf t m o d.headers f = some b ∧ d'.files (obj o f) = some ⟨b, tm⟩ ∧ d.now < tm
  | [], d, _, _, _, _ => ⟨d, rfl, id, rfl, le_refl _, fun _ _ => rfl, fun f hf => absurd hf (by simp)⟩
  | f :: L, d, hr, nd, inj, hc => by
    obtain ⟨b, hb⟩ := Option.isSome_iff_exists.mp (hc f List.mem_cons_self)
    have hno : ∀ g ∈ L, obj o g ≠ obj o f := fun g hg e =>
      (List.nodup_cons.mp nd).1 (by rw [← inj g (List.mem_cons_of_mem _ hg) f List.mem_cons_self e]; exact hg)
    obtain ⟨d', e, h0, h1, h2, h3, h4⟩ := loop_ok hm hne L (d.write (obj o f) b) (ready_write o hne b hr hno) (List.nodup_cons.mp nd).2
      (fun x hx y hy => inj x (List.mem_cons_of_mem _ hx) y (List.mem_cons_of_mem _ hy)) (fun g hg => hc g (List.mem_cons_of_mem _ hg))
    refine ⟨d', ?_, fun hq => h0 (past_write hq _ _), h1, (Nat.le_succ _).trans h2, ?_, ?_⟩
    · rw [List.map_cons, List.foldlM_cons, makeObj_ready t m o hm hr List.mem_cons_self, hb]
      exact e
    · intro p hp
      rw [h3 p fun g hg => hp g (List.mem_cons_of_mem _ hg)]
      simp only [Dir.write, Function.update_apply]
      exact if_neg (hp f List.mem_cons_self)
    · intro g hg
      rcases List.mem_cons.mp hg with rfl | hg
      · refine ⟨b, d.now + 1, hb, ?_, Nat.lt_succ_self _⟩
        rw [h3 _ fun x hx => (hno x hx).symm]
        simp only [Dir.write, Function.update_self]
      · obtain ⟨b', tm, h5, h6, h7⟩ := h4 g hg
        exact ⟨b', tm, h5, h6, (Nat.lt_succ_self _).trans h7⟩

theorem loop_err (hm : m.ext = o.ext) (hne : ∀ f g : Func, source o f ≠ obj o g) : ∀ (L : List Func) (d : Dir), Ready o L d → L.Nodup →
    (∀ f ∈ L, ∀ g ∈ L, obj o f = obj o g → f = g) → (∃ f ∈ L, ccOf t m o d.headers f = none) →
    (L.map (obj o)).foldlM (makeObj t m) d = .error .called
  | [], _, _, _, _, h => by obtain ⟨f, hf, _⟩ := h; exact absurd hf (by simp)
  | f :: L, d, hr, nd, inj, hx => by
    have hno : ∀ g ∈ L, obj o g ≠ obj o f := fun g hg e =>
      (List.nodup_cons.mp nd).1 (by rw [← inj g (List.mem_cons_of_mem _ hg) f List.mem_cons_self e]; exact hg)
    rw [List.map_cons, List.foldlM_cons, makeObj_ready t m o hm hr List.mem_cons_self]
    cases hb : ccOf t m o d.headers f with
    | none => rfl
    | some b =>
      refine loop_err hm hne L (d.write (obj o f) b) (ready_write o hne b hr hno) (List.nodup_cons.mp nd).2
        (fun x hx y hy => inj x (List.mem_cons_of_mem _ hx) y (List.mem_cons_of_mem _ hy)) ?_
      obtain ⟨g, hg, e⟩ := hx
      rcases List.mem_cons.mp hg with rfl | hg
      · rw [hb] at e; exact absurd e (by simp)
      · exact ⟨g, hg, e⟩

end

/-! ## The claims -/

/-- What `generate` says. -/
theorem generate_ok {t : Tools} {o : Opts} {fs fs' : List Func} {d d1 : Dir} {m : Makefile} (h : generate t o fs d = .ok (m, fs', d1)) :
    ∃ fl, cflags o = some fl ∧ m = ⟨compiler o, fl, ldflags o, objects o fs, target o, o.ext⟩ ∧ fs' = fs.map (rename o.pre) ∧
      d1 = writeSources o fs d := by
  unfold generate at h
  split at h
  · exact absurd h (by simp)
  split at h
  · exact absurd h (by simp)
  split at h
  · exact absurd h (by simp)
  cases hc : cflags o with
  | none => rw [hc] at h; exact absurd h (by simp)
  | some fl =>
    rw [hc] at h
    have := Except.ok.inj h
    exact ⟨fl, rfl, (Prod.mk.inj this).1.symm, (Prod.mk.inj (Prod.mk.inj this).2).1.symm, (Prod.mk.inj (Prod.mk.inj this).2).2.symm⟩

/-- The object files are those of the functions in the order of the paths. -/
theorem objects_eq {o : Opts} {fs : List Func} (h : Fits o fs) : ∃ order : List Func, order.Perm fs ∧
    (order.Pairwise fun f g => strLe (Grid.lower (source o f)) (Grid.lower (source o g)) = true) ∧ objects o fs = order.map (obj o) := by
  obtain ⟨order, hp, he⟩ := perm_of_map (source o) (Grid.sortLower_perm (fs.map (source o))).symm fs rfl
  refine ⟨order, hp, ?_, ?_⟩
  · have := Grid.sortLower_sorted (fs.map (source o))
    rw [← he, List.pairwise_map] at this
    exact this
  · unfold objects
    rw [← he, List.map_map]
    refine List.map_congr_left fun f hf => ?_
    exact replace_ext _ _ h.extDot (h.once f (hp.mem_iff.mp hf))

/-- **C116** (objects): one object file for each registered function and no other, in the order of the paths. -/
theorem C116_objects (o : Opts) (fs : List Func) (h : Fits o fs) :
    (objects o fs).Perm (fs.map fun f => stem o.pre f ++ (c% ".o")) ∧ (objects o fs).Nodup := by
  obtain ⟨order, hp, _, he⟩ := objects_eq h
  have nd : order.Nodup := hp.nodup_iff.mpr (List.Nodup.of_map _ h.keys)
  rw [he]
  refine ⟨hp.map _, ?_⟩
  exact List.Nodup.map_on (fun f hf g hg e => obj_inj h (hp.mem_iff.mp hf) (hp.mem_iff.mp hg) e) nd

theorem present_bytes (t : Tools) (m : Makefile) (o : Opts) (hd : Str) (d2 : Dir) : ∀ L : List Func,
    (∀ f ∈ L, ∃ b tm, ccOf t m o hd f = some b ∧ d2.files (obj o f) = some ⟨b, tm⟩) →
    ((L.map (obj o)).filterMap d2.files).map File.bytes = L.map fun f => (ccOf t m o hd f).getD []
  | [], _ => rfl
  | f :: L, h => by
    obtain ⟨b, tm, hb, hf⟩ := h f List.mem_cons_self
    rw [List.map_cons, List.filterMap_cons, hf]
    simp only [List.map_cons, hb, Option.getD_some]
    rw [present_bytes t m o hd d2 L fun g hg => h g (List.mem_cons_of_mem _ hg)]

theorem make_eq {t : Tools} {o : Opts} {fs fs' : List Func} {d d1 : Dir} {m : Makefile} (hg : generate t o fs d = .ok (m, fs', d1))
    (h : Fits o fs) (hd : d.Past) : ∃ order : List Func, order.Perm fs ∧
      (order.Pairwise fun f g => strLe (Grid.lower (source o f)) (Grid.lower (source o g)) = true) ∧
      ((∃ f ∈ fs, ccOf t m o d.headers f = none) → make t m d1 = .error .called) ∧
      ((∀ f ∈ fs, (ccOf t m o d.headers f).isSome) → ∃ objs : List Str, order.map (ccOf t m o d.headers) = objs.map some ∧
        ∃ d2 : Dir, (∀ f ∈ fs, ∃ tm, d2.files (source o f) = some ⟨wantedText o.pre f, tm⟩ ∧ ∃ x, d2.files (obj o f) = some x ∧ tm ≤ x.time) ∧
          d2.Past ∧ d2.headers = d.headers ∧
          make t m d1 = match t.ld (usedCC t m) (usedFlags t m) (usedLibs t m) objs with
            | none => .error .called
            | some b => .ok (d2.write (target o) b)) := by
  obtain ⟨fl, _, hm, _, rfl⟩ := generate_ok hg
  obtain ⟨order, hp, hs, he⟩ := objects_eq h
  have nd : fs.Nodup := List.Nodup.of_map _ h.keys
  have ndo : order.Nodup := hp.nodup_iff.mpr nd
  have mem : ∀ f, f ∈ order ↔ f ∈ fs := fun f => hp.mem_iff
  have inj : ∀ f ∈ order, ∀ g ∈ order, obj o f = obj o g → f = g := fun f hf g hg e => obj_inj h ((mem f).mp hf) ((mem g).mp hg) e
  have hne : ∀ f g : Func, source o f ≠ obj o g := source_ne_obj h
  have hme : m.ext = o.ext := by rw [hm]
  have hmo : m.objs = order.map (obj o) := by rw [hm]; exact he
  have hmt : m.target = target o := by rw [hm]
  obtain ⟨w1, w2, w3, w4, w5⟩ := writeSources_spec o fs d (fun f hf g hg e => source_inj h hf hg e) nd hd
  have ready : Ready o order (writeSources o fs d) := by
    intro f hf
    obtain ⟨tm, h1, h2⟩ := w5 f ((mem f).mp hf)
    refine ⟨_, h2, rfl, ?_⟩
    rw [w4 _ fun g _ e => hne g f e.symm]
    unfold outdated
    split
    · rfl
    · next x hx => exact decide_eq_true (lt_of_le_of_lt (hd _ _ hx) h1)
  refine ⟨order, hp, hs, ?_, ?_⟩
  · rintro ⟨f, hf, e⟩
    unfold make
    rw [hmo, loop_err t m o hme hne order _ ready ndo inj ⟨f, (mem f).mpr hf, by rw [w1]; exact e⟩]
    rfl
  · intro hc
    obtain ⟨d2, e, h0, h1, h2, h3, h4⟩ := loop_ok t m o hme hne order _ ready ndo inj (fun f hf => by rw [w1]; exact hc f ((mem f).mp hf))
    rw [w1] at h1 h4
    refine ⟨order.map fun f => (ccOf t m o d.headers f).getD [], ?_, d2, ?_, h0 w3, h1, ?_⟩
    · rw [List.map_map]
      refine List.map_congr_left fun f hf => ?_
      obtain ⟨b, tm, hb, _⟩ := h4 f hf
      simp [hb]
    · intro f hf
      obtain ⟨tm, _, hx⟩ := w5 f hf
      obtain ⟨b, tx, _, hy, hlt⟩ := h4 f ((mem f).mpr hf)
      exact ⟨tm, by rw [h3 _ fun g _ => hne f g]; exact hx, _, hy, (w3 _ _ hx).trans (le_of_lt hlt)⟩
    · have pres : (present m d2).map File.bytes = order.map fun f => (ccOf t m o d.headers f).getD [] := by
        unfold present
        rw [hmo]
        exact present_bytes t m o d.headers d2 order fun f hf => by
          obtain ⟨b, tm, h5, h6, _⟩ := h4 f hf
          exact ⟨b, tm, h5, h6⟩
      have out : (present m d2).any (outdated (d2.files m.target)) = true := by
        obtain ⟨f, hf⟩ := List.exists_mem_of_ne_nil order fun e => h.some (List.Perm.nil_eq (e ▸ hp)).symm
        obtain ⟨b, tm, _, h6, h7⟩ := h4 f hf
        rw [List.any_eq_true]
        refine ⟨⟨b, tm⟩, ?_, ?_⟩
        · unfold present
          rw [hmo, List.mem_filterMap]
          exact ⟨obj o f, List.mem_map_of_mem hf, h6⟩
        · rw [hmt, h3 _ fun g hg => h.exeObj g ((mem g).mp hg)]
          unfold outdated
          split
          · rfl
          · next x hx => exact decide_eq_true (lt_of_le_of_lt (w3 _ _ hx) h7)
      unfold make
      rw [hmo, e]
      show link t m d2 = _
      unfold link
      rw [if_pos out, pres, hmt]
      rfl

/-- **C116** (build): after the project is written, `make` succeeds exactly if each registered function compiles and the linker succeeds. Then the
executable is what the linker makes of the object code of all registered functions, each once, each compiled from its present C code with the same
flags, whatever files of earlier runs were there; and the source files are the C code of the functions. Missing for the full property: names of
subdirectories that contain the extension of the sources. -/
theorem C116_build_partial (t : Tools) (o : Opts) (fs fs' : List Func) (d d1 : Dir) (m : Makefile) (hg : generate t o fs d = .ok (m, fs', d1))
    (h : Fits o fs) (hd : d.Past) : ∃ order : List Func, order.Perm fs ∧
      (order.Pairwise fun f g => strLe (Grid.lower (stem o.pre f ++ '.' :: o.ext)) (Grid.lower (stem o.pre g ++ '.' :: o.ext)) = true) ∧
      let cc := fun f => t.cc (usedCC t m) (usedFlags t m) d.headers (wantedText o.pre f)
      let ld := t.ld (usedCC t m) (usedFlags t m) (usedLibs t m)
      ((∃ d2, make t m d1 = .ok d2) ↔ ∃ objs exe, order.map cc = objs.map some ∧ ld objs = some exe) ∧
      (∀ d2, make t m d1 = .ok d2 → ∃ objs exe, order.map cc = objs.map some ∧ ld objs = some exe ∧
        (d2.files (target o)).map File.bytes = some exe ∧
        ∀ f ∈ fs, (d2.files (stem o.pre f ++ '.' :: o.ext)).map File.bytes = some (wantedText o.pre f)) := by
  obtain ⟨order, hp, hs, he, hk⟩ := make_eq hg h hd
  refine ⟨order, hp, hs, ?_⟩
  intro cc ld
  by_cases hc : ∀ f ∈ fs, (ccOf t m o d.headers f).isSome
  · obtain ⟨objs, e1, d2, h1, _, h2, h3⟩ := hk hc
    have uniq : ∀ objs', order.map cc = objs'.map some → objs' = objs := fun objs' e' =>
      List.map_injective_iff.mpr (Option.some_injective _) (e'.symm.trans e1)
    cases hl : ld objs with
    | none =>
      have h3' : make t m d1 = .error .called := by
        rw [h3]
        show (match ld objs with
          | none => Except.error Err.called
          | some b => Except.ok (d2.write (target o) b)) = _
        rw [hl]
      rw [h3']
      refine ⟨⟨fun ⟨x, e⟩ => absurd e (by simp), ?_⟩, fun x e => absurd e (by simp)⟩
      rintro ⟨objs', exe, e', l'⟩
      rw [uniq objs' e', hl] at l'
      exact absurd l' (by simp)
    | some exe =>
      have h3' : make t m d1 = .ok (d2.write (target o) exe) := by
        rw [h3]
        show (match ld objs with
          | none => Except.error Err.called
          | some b => Except.ok (d2.write (target o) b)) = _
        rw [hl]
      rw [h3']
      refine ⟨⟨fun _ => ⟨objs, exe, e1, hl⟩, fun _ => ⟨_, rfl⟩⟩, ?_⟩
      intro x hx
      rw [← Except.ok.inj hx]
      refine ⟨objs, exe, e1, hl, ?_, ?_⟩
      · simp [Dir.write]
      · intro f hf
        obtain ⟨tm, e, _⟩ := h1 f hf
        simp only [Dir.write, Function.update_apply]
        rw [if_neg (Ne.symm (h.exeSource f hf))]
        show Option.map File.bytes (d2.files (source o f)) = _
        rw [e]
        rfl
  · have : ∃ f ∈ fs, ccOf t m o d.headers f = none := by
      by_contra hx
      refine hc fun f hf => ?_
      by_contra hy
      exact hx ⟨f, hf, by simpa using hy⟩
    rw [he this]
    refine ⟨⟨fun ⟨x, e⟩ => absurd e (by simp), ?_⟩, fun x e => absurd e (by simp)⟩
    rintro ⟨objs, _, e, _⟩
    obtain ⟨f, hf, hn⟩ := this
    have hmem : cc f ∈ order.map cc := List.mem_map_of_mem (hp.mem_iff.mpr hf)
    rw [e, List.mem_map] at hmem
    obtain ⟨b, _, hb⟩ := hmem
    exact absurd (hb.trans hn) (by simp)

/-- `make` does nothing if all object files are there and not older than their sources, and the executable is not older than they are. -/
theorem make_idle {t : Tools} {m : Makefile} {d : Dir} (h1 : ∀ p ∈ m.objs, ∃ s x, d.files (prerequisite m.ext p) = some s ∧ d.files p = some x ∧ s.time ≤ x.time)
    (h2 : ∃ e, d.files m.target = some e ∧ ∀ p ∈ m.objs, ∀ x, d.files p = some x → x.time ≤ e.time) : make t m d = .ok d := by
  have loop : ∀ L : List Str, (∀ p ∈ L, p ∈ m.objs) → L.foldlM (makeObj t m) d = .ok d := by
    intro L
    induction L with
    | nil => exact fun _ => rfl
    | cons p L ih =>
      intro hL
      obtain ⟨s, x, e1, e2, e3⟩ := h1 p (hL p List.mem_cons_self)
      have : makeObj t m d p = .ok d := by
        unfold makeObj
        rw [e1, e2]
        simp only [outdated, decide_eq_true_eq]
        rw [if_neg (Nat.not_lt.mpr e3)]
      rw [List.foldlM_cons, this]
      exact ih fun q hq => hL q (List.mem_cons_of_mem _ hq)
  unfold make
  rw [loop _ fun p hp => hp]
  show link t m d = _
  obtain ⟨e, he, hx⟩ := h2
  unfold link
  rw [if_neg]
  rw [List.any_eq_true]
  rintro ⟨x, hm, ho⟩
  unfold present at hm
  rw [List.mem_filterMap] at hm
  obtain ⟨p, hp, hf⟩ := hm
  rw [he] at ho
  simp only [outdated, decide_eq_true_eq] at ho
  exact absurd (hx p hp x hf) (Nat.not_le.mpr ho)

/-- **C116** (headers, finding): after a successful build `make` finds nothing to do, also if the headers have changed since. -/
theorem C116_headers_violation (t : Tools) (o : Opts) (fs fs' : List Func) (d d1 d2 : Dir) (m : Makefile)
    (hg : generate t o fs d = .ok (m, fs', d1)) (h : Fits o fs) (hd : d.Past) (hm : make t m d1 = .ok d2) (headers : Str) :
    make t m { d2 with headers := headers } = .ok { d2 with headers := headers } := by
  obtain ⟨order, hp, _, he, hk⟩ := make_eq hg h hd
  obtain ⟨fl, _, hmk, _, _⟩ := generate_ok hg
  obtain ⟨ord, hp', _, ho⟩ := objects_eq h
  have hc : ∀ f ∈ fs, (ccOf t m o d.headers f).isSome := by
    by_contra hx
    have : ∃ f ∈ fs, ccOf t m o d.headers f = none := by
      by_contra hy
      refine hx fun f hf => ?_
      by_contra hz
      exact hy ⟨f, hf, by simpa using hz⟩
    rw [he this] at hm
    exact absurd hm (by simp)
  obtain ⟨objs, _, d3, h1, h2, h3, h4⟩ := hk hc
  rw [hm] at h4
  split at h4
  · exact absurd h4 (by simp)
  next b _ =>
  have hd2 : d2 = d3.write (target o) b := Except.ok.inj h4
  subst hd2
  have hmo : m.objs = ord.map (obj o) := by rw [hmk]; exact ho
  have hme : m.ext = o.ext := by rw [hmk]
  have hmt : m.target = target o := by rw [hmk]
  have objOf : ∀ f ∈ fs, (d3.write (target o) b).files (obj o f) = d3.files (obj o f) := fun f hf => by
    simp only [Dir.write, Function.update_apply]
    exact if_neg (Ne.symm (h.exeObj f hf))
  apply make_idle
  · intro p hpm
    rw [hmo, List.mem_map] at hpm
    obtain ⟨f, hf, rfl⟩ := hpm
    have hf' := hp'.mem_iff.mp hf
    obtain ⟨tm, e1, x, e2, e3⟩ := h1 f hf'
    refine ⟨⟨wantedText o.pre f, tm⟩, x, ?_, (objOf f hf').trans e2, e3⟩
    rw [hme, prerequisite_obj]
    show (d3.write (target o) b).files (source o f) = _
    simp only [Dir.write, Function.update_apply]
    exact (if_neg (Ne.symm (h.exeSource f hf'))).trans e1
  · refine ⟨⟨b, d3.now + 1⟩, ?_, ?_⟩
    · rw [hmt]; simp [Dir.write]
    · intro p hpm x hx
      rw [hmo, List.mem_map] at hpm
      obtain ⟨f, hf, rfl⟩ := hpm
      have hx' : d3.files (obj o f) = some x := (objOf f (hp'.mem_iff.mp hf)).symm.trans hx
      exact (h2 _ _ hx').trans (Nat.le_succ _)

/-- **C116** (refused): the project is written exactly if there is a function `main` or a library is built, the operating system is known, the
compiler is there and the option is one of the four. -/
theorem C116_refused (t : Tools) (o : Opts) (fs : List Func) (d : Dir) :
    (∃ r, generate t o fs d = .ok r) ↔ (o.createLib = true ∨ ((∃ f ∈ fs, f.key = c% "main") ∧ (o.os = (c% "Linux") ∨ o.os = c% "Darwin"))) ∧
      t.which (compiler o) = true ∧ o.opt ∈ [c% "default", c% "fast", c% "debug", c% "nvcc"] := by
  have hopt : (cflags o).isSome ↔ o.opt ∈ [c% "default", c% "fast", c% "debug", c% "nvcc"] := by
    unfold cflags
    rw [Option.isSome_map]
    unfold baseFlags
    simp only [List.mem_cons, List.not_mem_nil, or_false]
    split
    · simp [*]
    split
    · simp [*]
    split
    · simp [*]
    split
    · simp [*]
    · simp [*]
  rw [← hopt]
  unfold generate
  cases hl : o.createLib <;> by_cases hk : (c% "main") ∈ fs.map Func.key <;> by_cases h1 : o.os = (c% "Linux") <;>
    by_cases h2 : o.os = (c% "Darwin") <;> cases hw : t.which (compiler o) <;> cases hc : cflags o <;>
    (have hk' := hk; rw [List.mem_map] at hk'; simp [hk, hk', h1, h2, -List.mem_map, -List.mem_cons])

/-- **C116** (flags): the flags are those of the option asked for, followed by the additional ones; for a shared library `-fPIC` and `-shared` are
among them. -/
theorem C116_flags (t : Tools) (o : Opts) (fs fs' : List Func) (d d1 : Dir) (m : Makefile) (hg : generate t o fs d = .ok (m, fs', d1)) :
    ∃ base addl, baseFlags o.opt = some base ∧ m.cflags = (if addl = [] then base else base ++ (c% " ") ++ joinWith ' ' addl) ∧ o.addl <+: addl ∧
      (o.createLib = false → addl = o.addl) ∧ (o.createLib = true → (c% "-fPIC") ∈ addl ∧ (c% "-shared") ∈ addl) := by
  obtain ⟨fl, hf, rfl, _, _⟩ := generate_ok hg
  unfold cflags at hf
  rw [Option.map_eq_some_iff] at hf
  obtain ⟨base, h1, h2⟩ := hf
  refine ⟨base, addlFlags o, h1, h2.symm, ?_, ?_, ?_⟩
  · unfold addlFlags
    split
    · simp only [List.foldl_cons, List.foldl_nil]
      split <;> split <;> simp [List.prefix_append, List.append_assoc]
    · exact List.prefix_refl _
  · intro h
    simp [addlFlags, h]
  · intro h
    unfold addlFlags
    rw [if_pos h]
    simp only [List.foldl_cons, List.foldl_nil]
    split <;> split <;> simp_all

/-- **C116** (compiler): with `nvcc`, or if the environment names the compiler, that compiler is called. Missing for the full property: the compiler
asked for by the caller. -/
theorem C116_compiler_partial (t : Tools) (o : Opts) (fs fs' : List Func) (d d1 : Dir) (m : Makefile) (hg : generate t o fs d = .ok (m, fs', d1)) :
    (o.CC = (c% "nvcc") → usedCC t m = c% "nvcc") ∧ (o.CC ≠ (c% "nvcc") → ∀ e, t.envCC = some e → usedCC t m = e) := by
  obtain ⟨fl, _, rfl, _, _⟩ := generate_ok hg
  have hcomp : o.CC ≠ (c% "nvcc") → compiler o ≠ c% "nvcc" := by
    intro h
    unfold compiler
    split
    · split <;> decide
    · exact h
  refine ⟨fun h => ?_, fun h e he => ?_⟩
  · have : compiler o = c% "nvcc" := by unfold compiler; rw [h, if_neg (by decide)]
    simp [usedCC, this]
  · simp [usedCC, hcomp h, he]

/-- **C116** (compiler, finding): without a variable in the environment `make` calls `cc`, whichever compiler was asked for or detected. -/
theorem C116_compiler_violation (t : Tools) (o : Opts) (fs fs' : List Func) (d d1 : Dir) (m : Makefile)
    (hg : generate t o fs d = .ok (m, fs', d1)) (hn : o.CC ≠ c% "nvcc") (he : t.envCC = none) : usedCC t m = c% "cc" := by
  obtain ⟨fl, _, rfl, _, _⟩ := generate_ok hg
  have : compiler o ≠ c% "nvcc" := by
    unfold compiler
    split
    · split <;> decide
    · exact hn
  simp [usedCC, this, he]

/-- **C116** (prefix): writing a library again with the same prefix writes the same names. -/
theorem C116_prefix (t : Tools) (o : Opts) (fs fs' : List Func) (d d1 : Dir) (m : Makefile) (hg : generate t o fs d = .ok (m, fs', d1)) :
    (fs'.map fun f => (source o f, wantedText o.pre f)) = fs.map fun f => (source o f, wantedText o.pre f) := by
  obtain ⟨fl, _, _, rfl, _⟩ := generate_ok hg
  rw [List.map_map]
  refine List.map_congr_left fun f _ => ?_
  unfold rename
  simp only [Function.comp]
  split <;> simp [source, stem, fileName, wantedText, *]

/-- **C116** (prefix, finding): after a prefix was used once, a project written without prefix has the names of the functions in its files with the
prefix, in files without it. -/
theorem C116_prefix_violation (t : Tools) (o o' : Opts) (fs fs' : List Func) (d d1 : Dir) (m : Makefile) (hg : generate t o fs d = .ok (m, fs', d1))
    (hp : o.pre ≠ []) (hp' : o'.pre = []) : (fs'.map fun f => (fileName o'.pre f, wantedText o'.pre f)) = fs.map fun f => (f.key, f.full (o.pre ++ f.key)) := by
  obtain ⟨fl, _, _, rfl, _⟩ := generate_ok hg
  rw [List.map_map]
  refine List.map_congr_left fun f _ => ?_
  simp [rename, hp, hp', fileName, wantedText]

/-! ### `compile_Makefile` -/

/-- **C116** (compile): for an executable with a name, a call either returns in the working directory of the caller with the executable of one run of
`make` with the flags asked for, or raises the exception of `make`. -/
theorem C116_compile (t : Tools) (o : Opts) (fs fs' : List Func) (d d1 : Dir) (m : Makefile) (hg : generate t o fs d = .ok (m, fs', d1))
    (h : Fits o fs) (hd : d.Past) (hl : o.createLib = false) (hn : o.exe ≠ []) (hw : t.which (c% "make") = true) :
    ((compile t o fs d).err = none ∧ (compile t o fs d).home = true ∧ make t m d1 = .ok (compile t o fs d).dir ∧
        ((compile t o fs d).dir.files o.exe).isSome) ∨
      ((compile t o fs d).err = some .called ∧ make t m d1 = .error .called) := by
  have hw' : t.which (compiler o) = true := ((C116_refused t o fs d).mp ⟨_, hg⟩).2.1
  have ht : target o = o.exe := by simp [target, hl, hn]
  obtain ⟨order, _, _, _, hk⟩ := C116_build_partial t o fs fs' d d1 m hg h hd
  have herr : ∀ e, make t m d1 = .error e → e = .called := by
    obtain ⟨order, hp, _, he, hk⟩ := make_eq hg h hd
    intro e hx
    by_cases hc : ∀ f ∈ fs, (ccOf t m o d.headers f).isSome
    · obtain ⟨objs, _, d3, _, _, _, h4⟩ := hk hc
      rw [hx] at h4
      split at h4
      · exact Except.error.inj h4
      · exact absurd h4 (by simp)
    · have : ∃ f ∈ fs, ccOf t m o d.headers f = none := by
        by_contra hy
        refine hc fun f hf => ?_
        by_contra hz
        exact hy ⟨f, hf, by simpa using hz⟩
      rw [he this] at hx
      exact (Except.error.inj hx).symm
  unfold compile
  rw [if_neg (by simp [hw, hw']), hg]
  simp only
  cases hm : make t m d1 with
  | error e => exact Or.inr ⟨by simp [herr e hm], by rw [herr e hm]⟩
  | ok d2 =>
    obtain ⟨objs, exe, _, _, e3, _⟩ := hk d2 hm
    have hs : (d2.files o.exe).isSome := by
      rw [ht] at e3
      rw [← Option.isSome_map (f := File.bytes), e3]; rfl
    have : isFile o.exe d2 = true := by simp [isFile, hn, hs]
    simp only [this]
    exact Or.inl ⟨rfl, rfl, rfl, hs⟩

/-- **C116** (second attempt, finding): if a function does not compile with the flags asked for, the exception is raised after the first attempt,
whether or not it compiles with the flags of the second one, and the caller is left in the directory of the project. -/
theorem C116_retry_violation (t : Tools) (o : Opts) (fs fs' : List Func) (d d1 : Dir) (m : Makefile) (hg : generate t o fs d = .ok (m, fs', d1))
    (h : Fits o fs) (hd : d.Past) (hw : t.which (c% "make") = true)
    (hf : ∃ f ∈ fs, t.cc (usedCC t m) (usedFlags t m) d.headers (wantedText o.pre f) = none) :
    (compile t o fs d).err = some .called ∧ (compile t o fs d).home = false := by
  have hw' : t.which (compiler o) = true := ((C116_refused t o fs d).mp ⟨_, hg⟩).2.1
  obtain ⟨order, hp, _, he, hk⟩ := make_eq hg h hd
  unfold compile
  rw [if_neg (by simp [hw, hw']), hg]
  simp only [he hf, and_self]

/-- **C116** (empty name, finding): without a name for the executable a call never succeeds, although the executable gets the name of the project. -/
theorem C116_empty_violation (t : Tools) (o : Opts) (fs : List Func) (d : Dir) (hn : o.exe = []) : (compile t o fs d).err ≠ none := by
  have h2 : ∀ o' : Opts, o'.exe = [] → ∀ d, (attempt2 t o' fs d).err ≠ none := by
    intro o' ho d
    unfold attempt2
    split
    · simp
    split
    · simp
    split
    · simp
    · simp [isFile, ho]
  unfold compile
  split
  · simp
  split
  · simp
  split
  · simp
  · simp only [isFile, hn, ne_eq, not_true_eq_false, decide_false, Bool.false_and, if_true]
    exact h2 _ rfl _

/-! ### Cases -/

/-- A project with two functions. -/
def exOpts : Opts := ⟨c% "proj", c% "run", c% "fast", [c% "-DX"], [], c% "autodetect", false, [], c% "c", c% "Linux"⟩
def exFuncs : List Func := [⟨c% "main", [], c% "main", fun n => (c% "int ") ++ n⟩, ⟨c% "Rhs", c% "wave", c% "Rhs", fun n => (c% "void ") ++ n⟩]
/-- A machine with a compiler and a linker that keep everything. -/
def exTools : Tools := ⟨fun c f h s => some (c ++ f ++ h ++ s), fun c _ _ l => some (c ++ l.flatten), fun _ => true, none, true⟩
def exDir : Dir := ⟨fun p => if p = c% "main.o" then some ⟨c% "old", 3⟩ else none, c% "H", 5⟩

example : Fits exOpts exFuncs ∧ exDir.Past ∧ objects exOpts exFuncs = [c% "main.o", c% "wave/Rhs.o"] ∧
    (compile exTools exOpts exFuncs exDir).err = none := by
  refine ⟨⟨by decide, by decide, by decide, by decide, by decide, by decide, by decide, by decide, by decide⟩, ?_, by decide, by decide⟩
  intro p f hf
  simp only [exDir] at hf ⊢
  split at hf
  · rw [← Option.some.inj hf]; decide
  · exact absurd hf (by simp)

/-- A compiler that stops at `-O3`: the flags of the second attempt would do. -/
example : let t := { exTools with cc := fun _ f _ s => if (c% "-std=gnu99 -O3") <+: f then none else some s }
    (compile t exOpts exFuncs exDir).err = some .called ∧ (compile t { exOpts with opt := c% "debug" } exFuncs exDir).err = none := by decide

/-- **C116** (build, finding): a subdirectory whose name contains the extension makes `make` look for a file that does not exist, although every
function compiles and the linker always succeeds. -/
theorem C116_build_violation : ∃ (t : Tools) (o : Opts) (fs fs' : List Func) (d d1 : Dir) (m : Makefile), d.Past ∧
    generate t o fs d = .ok (m, fs', d1) ∧ (∀ c f h s, (t.cc c f h s).isSome) ∧ (∀ c f l objs, (t.ld c f l objs).isSome) ∧
    make t m d1 = .error .called := by
  refine ⟨exTools, exOpts, [⟨c% "main", c% "my.code", c% "main", fun n => n⟩], _, ⟨fun _ => none, [], 0⟩, _, _, ?_, rfl, fun _ _ _ _ => rfl,
    fun _ _ _ _ => rfl, ?_⟩
  · exact fun p f hf => absurd hf (by simp)
  · rfl

/-- **C116** (name): an executable has the name given, or that of the project; a library has the same with the extension of the system, added only if
it is missing. -/
theorem C116_target (o : Opts) :
    let n := if o.exe = [] then o.project else o.exe
    let e := if o.os = (c% "Linux") then (c% ".so") else (c% ".dylib")
    (o.createLib = false → target o = n) ∧
    (o.createLib = true → e <:+ target o ∧ (e <:+ n → target o = n) ∧ (¬ e <:+ n → target o = n ++ e)) := by
  intro n e
  refine ⟨fun h => ?_, fun h => ?_⟩
  · unfold target
    rw [h]
    rfl
  · have ht : target o = if e <:+ n then n else n ++ e := by
      unfold target
      rw [h]
      rfl
    rw [ht]
    by_cases hs : e <:+ n
    · simp [hs]
    · simp [hs, List.suffix_append]

end Verif.BHaH.Make
