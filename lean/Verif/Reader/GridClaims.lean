import Verif.Reader.Claims

/-!
# C102: the gridfunctions after the initial data reader
-/
namespace Verif.Reader
open Verif.Py Verif.RefMetric Verif.BSSN Verif.Equations Verif.CurviBC Real

/-- All gridfunctions set. -/
def vars : List Var := gfList ++ ([0, 1, 2] : List (Fin 3)).map .lambdaU

/-- The indices at the end of the name. -/
def Var.indices : Var → List ℕ
  | .alpha | .cf | .trK => []
  | .vetU i | .betU i | .lambdaU i => [i]
  | .hDD i j | .aDD i j => [i, j]

/-- The numbers of the gridfunctions, and the parity types that the records of the gridfunctions have. -/
structure Layout (num : Var → ℕ) (nGfs : ℕ) (types : ℕ → Fin 10) : Prop where
  lt : ∀ v ∈ vars, num v < nGfs
  inj : ∀ v ∈ vars, ∀ w ∈ vars, num v = num w → v = w
  gf : ∀ v ∈ vars, ∃ (g : Verif.Grid.GF) (base : Str), Verif.Grid.IsComponent g base v.indices ∧ g.dimension = 3 ∧
    Verif.Grid.parityOf g = .ok (types (num v) : ℕ)

theorem comp_indices (T : Slice) (cf : CF) (origin : Vec) (v : Var) : (T.comp cf origin v).indices = v.indices := by
  cases v <;> rfl

theorem vars_nodup : vars.Nodup := by decide

theorem mem_vars_h {i j : Fin 3} : hVar i j ∈ gfList := by revert i j; decide

theorem mem_lambda (i : Fin 3) : Var.lambdaU i ∈ vars := by revert i; decide

theorem gf_sub {v : Var} (h : v ∈ gfList) : v ∈ vars := List.mem_append_left _ h

theorem gf_ne_lambda {v : Var} (h : v ∈ gfList) (i : Fin 3) : v ≠ .lambdaU i := by
  rintro rfl
  revert h i
  decide

/-! ### Loops without races -/

theorem nodup_dst {G : Grid} {num : Var → ℕ} {V : List Var} (hV : V.Nodup) (hi : ∀ v ∈ V, ∀ w ∈ V, num v = num w → v = w)
    {l : List Idx} (hl : l.Nodup) (hh : ∀ p ∈ l, G.Has p) :
    (l.flatMap fun p => V.map fun v => G.pt (num v) (G.at p)).Nodup := by
  refine List.nodup_flatMap.2 ⟨fun p hp => ?_, ?_⟩
  · exact List.Nodup.map_on (fun v hv w hw e => hi v hv w hw (Grid.pt_inj (hh p hp) (hh p hp) e).1) hV
  · refine List.Pairwise.imp_of_mem ?_ hl
    intro p q hp hq hne a ha ha'
    obtain ⟨v, -, rfl⟩ := List.mem_map.1 ha
    obtain ⟨w, -, e⟩ := List.mem_map.1 ha'
    exact hne (Grid.pt_inj (hh q hq) (hh p hp) e).2.symm

theorem mem_all {G : Grid} {p : Idx} : p ∈ loop ![0, 0, 0] G.n ↔ G.Has p := by
  rw [mem_loop]
  refine forall_congr' fun d => ?_
  fin_cases d <;> rfl

theorem mem_int {G : Grid} {p : Idx} : p ∈ loop ![G.g, G.g, G.g] (fun d => G.n d - G.g) ↔
    ∀ d, (G.g : ℤ) ≤ p d ∧ p d < G.n d - G.g := by
  rw [mem_loop]
  refine forall_congr' fun d => ?_
  fin_cases d <;> rfl

section
variable {G : Grid} {num : Var → ℕ} {nGfs : ℕ} {types : ℕ → Fin 10} (hL : Layout num nGfs types)

theorem store_dst (S : Setup) (nan : Idx → Var → ℝ) : (storeAsgs G num S nan).map (·.dst) =
    (loop ![0, 0, 0] G.n).flatMap fun p => vars.map fun v => G.pt (num v) (G.at p) := by
  unfold storeAsgs vars
  rw [List.map_flatMap]
  simp only [List.map_append, List.map_map]
  rfl

include hL in
theorem raceFree_store (S : Setup) (nan : Idx → Var → ℝ) : RaceFree (storeAsgs G num S nan) := by
  constructor
  · rw [store_dst]
    exact nodup_dst vars_nodup hL.inj (nodup_loop _ _) fun p hp => mem_all.1 hp
  · intro x hx y hy
    have : y.reads = [] := by
      unfold storeAsgs at hy
      obtain ⟨p, -, hy⟩ := List.mem_flatMap.1 hy
      rcases List.mem_append.1 hy with h | h <;> obtain ⟨v, -, rfl⟩ := List.mem_map.1 h <;> rfl
    rw [this]
    exact List.not_mem_nil

theorem mem_counter' {a b k : ℤ} : k ∈ counter a b ↔ a ≤ k ∧ k < b := mem_counter

theorem move_has {W : Stencil} (hW : W.n ≤ G.g) {p : Idx} (hp : ∀ d, (G.g : ℤ) ≤ p d ∧ p d < G.n d - G.g) (d : Fin 3) {k : ℤ}
    (hk : k ∈ counter (-W.n) (W.n + 1)) : G.Has (move p d k) := by
  rw [mem_counter'] at hk
  intro e
  have := hp e
  unfold move
  split <;> omega

theorem mem_hReads {W : Stencil} {p : Idx} {a : ℤ} (h : a ∈ hReads G num W p) :
    ∃ i j, a = G.pt (num (hVar i j)) (G.at p) ∨
      ∃ d, ∃ k ∈ counter (-W.n) (W.n + 1), a = G.pt (num (hVar i j)) (G.at (move p d k)) := by
  unfold hReads at h
  obtain ⟨i, -, h⟩ := List.mem_flatMap.1 h
  obtain ⟨j, -, h⟩ := List.mem_flatMap.1 h
  refine ⟨i, j, ?_⟩
  rcases List.mem_cons.1 h with h | h
  · exact .inl h
  · obtain ⟨d, -, h⟩ := List.mem_flatMap.1 h
    obtain ⟨k, hk, e⟩ := List.mem_map.1 h
    exact .inr ⟨d, k, hk, e.symm⟩

theorem hReads_has {W : Stencil} (hW : W.n ≤ G.g) {p : Idx} (hp : ∀ d, (G.g : ℤ) ≤ p d ∧ p d < G.n d - G.g) {a : ℤ}
    (h : a ∈ hReads G num W p) : ∃ i j q, G.Has q ∧ a = G.pt (num (hVar i j)) (G.at q) := by
  obtain ⟨i, j, h | ⟨d, k, hk, h⟩⟩ := mem_hReads h
  · exact ⟨i, j, p, fun d => by have := hp d; constructor <;> omega, h⟩
  · exact ⟨i, j, _, move_has hW hp d hk, h⟩

theorem mem_three (i : Fin 3) : i ∈ ([0, 1, 2] : List (Fin 3)) := by revert i; decide

theorem pt_mem {W : Stencil} {p : Idx} (i j : Fin 3) : G.pt (num (hVar i j)) (G.at p) ∈ hReads G num W p := by
  unfold hReads
  refine List.mem_flatMap.2 ⟨i, mem_three i, List.mem_flatMap.2 ⟨j, mem_three j, List.mem_cons_self⟩⟩

theorem move_mem {W : Stencil} {p : Idx} (i j d : Fin 3) {k : ℤ} (hk : k ∈ counter (-W.n) (W.n + 1)) :
    G.pt (num (hVar i j)) (G.at (move p d k)) ∈ hReads G num W p := by
  unfold hReads
  refine List.mem_flatMap.2 ⟨i, mem_three i, List.mem_flatMap.2 ⟨j, mem_three j, List.mem_cons_of_mem _ ?_⟩⟩
  exact List.mem_flatMap.2 ⟨d, mem_three d, List.mem_map.2 ⟨k, hk, rfl⟩⟩

theorem lookup_zip (s : Mem) : ∀ {l : List ℤ} {a : ℤ}, a ∈ l → ((l.zip (l.map s)).lookup a).getD 0 = s a
  | b :: l, a, h => by
    rw [List.map_cons, List.zip_cons_cons, List.lookup_cons]
    by_cases e : a = b
    · subst e; simp
    · have : (a == b) = false := by simpa using e
      rw [this]
      exact lookup_zip s ((List.mem_cons.1 h).resolve_left e)

theorem hSymbols_congr {W : Stencil} {dx : Fin 3 → ℝ} {f f' : Fin 3 → Fin 3 → Idx → ℝ} {p : Idx}
    (h0 : ∀ i j, f i j p = f' i j p)
    (h1 : ∀ i j d, ∀ k ∈ counter (-W.n) (W.n + 1), f i j (move p d k) = f' i j (move p d k)) :
    hSymbols W dx f p = hSymbols W dx f' p := by
  have e0 : (fun i j => f i j p) = fun i j => f' i j p := by funext i j; exact h0 i j
  have e1 : (fun i j k => W.diff dx (f i j) k p) = fun i j k => W.diff dx (f' i j) k p := by
    funext i j d
    unfold Stencil.diff
    congr 2
    exact List.map_congr_left fun k hk => by rw [h1 i j d k hk]
  unfold hSymbols
  rw [e0, e1]

theorem lambda_dst (c : Coords) (W : Stencil) : (lambdaAsgs G num c W).map (·.dst) =
    (loop ![G.g, G.g, G.g] fun d => G.n d - G.g).flatMap fun p =>
      (([0, 1, 2] : List (Fin 3)).map Var.lambdaU).map fun v => G.pt (num v) (G.at p) := by
  unfold lambdaAsgs
  rw [List.map_flatMap]
  simp only [List.map_map]
  rfl

theorem int_has {p : Idx} (hp : ∀ d, (G.g : ℤ) ≤ p d ∧ p d < G.n d - G.g) : G.Has p := fun d => by
  have := hp d
  constructor <;> omega

include hL in
theorem raceFree_lambda (c : Coords) {W : Stencil} (hW : W.n ≤ G.g) : RaceFree (lambdaAsgs G num c W) := by
  constructor
  · rw [lambda_dst]
    refine nodup_dst (by decide) (fun v hv w hw e => ?_) (nodup_loop _ _) fun p hp => int_has (mem_int.1 hp)
    exact hL.inj v (List.mem_append_right _ hv) w (List.mem_append_right _ hw) e
  · intro x hx y hy hmem
    unfold lambdaAsgs at hx hy
    obtain ⟨p, hp, hx⟩ := List.mem_flatMap.1 hx
    obtain ⟨i, -, rfl⟩ := List.mem_map.1 hx
    obtain ⟨q, hq, hy⟩ := List.mem_flatMap.1 hy
    obtain ⟨j, -, rfl⟩ := List.mem_map.1 hy
    obtain ⟨a, b, r, hr, e⟩ := hReads_has hW (mem_int.1 hq) hmem
    have := (Grid.pt_inj (int_has (mem_int.1 hp)) hr e).1
    exact gf_ne_lambda mem_vars_h i (hL.inj _ (gf_sub mem_vars_h) _ (mem_lambda i) this.symm)

end

theorem symm_value {T : Slice} {p : Vec} (hT : T.Valid p) {c : Coords} {x : Vec} {cf : CF} {origin : Vec}
    (hp : c.toCart x + origin = p) (i j : Fin 3) :
    (T.comp cf origin (hVar i j)).value c x = (T.comp cf origin (.hDD i j)).value c x := by
  unfold hVar
  split
  · rfl
  · show ∑ a, ∑ b, T.eps (c.toCart x + origin) a b * c.unit x j a * c.unit x i b =
      ∑ a, ∑ b, T.eps (c.toCart x + origin) a b * c.unit x i a * c.unit x j b
    rw [hp, Finset.sum_comm]
    refine Finset.sum_congr rfl fun a _ => Finset.sum_congr rfl fun b _ => ?_
    have : T.eps p b a = T.eps p a b := by
      unfold Slice.eps
      rw [hT.gamma_symm b a]
      simp only [eq_comm]
    rw [this]
    ring

/-! ### C102 -/

section
variable {P : CoordParams} (hP : ValidParams P) {S : Setup} (hS : S.Good P) {e : Str} {eig : Coords}
  (he : eigenName S.name = some e) (hE : choose P e = .sys eig) {eps : ℝ} (hε : 0 < eps) {G : Grid}
  (hG : GoodGrid S.name S.sys G) {bc : BcStruct} (hbc : setUp G (mapsOf eps G S.sys eig) = some bc)
  {num : Var → ℕ} {nGfs : ℕ} {types : ℕ → Fin 10} (hL : Layout num nGfs types) {W : Stencil} (hW : W.n ≤ G.g)
  {T : Slice} {nan : Idx → Var → ℝ}
include hP hS he hE hε hG hbc hL hW

/-- After the initial data reader, whatever the order of the iterations of the parallel loops and whatever the memory
held: every gridfunction has, at all grid points including the ghost points, the value of the slice's component; `lambdaU`
is zero at the ghost points, and at the interior points it is the BSSN expression of the finite differences of these
values; other arrays are unchanged. -/
theorem C102_grid
    (hreg : ∀ q, G.Has q → (G.Ghost q → Outer G (mapsOf eps G S.sys eig) q) → Regular S.name (xxAt G S.sys q))
    (hID : ∀ q, G.Has q → HasData S T (S.sys.toCart (xxAt G S.sys q) + S.origin))
    (hT : ∀ p, T.Valid p) {s s' : Mem} (hr : Runs (reader G bc nGfs types num S W nan) s s') {p : Idx} (hp : G.Has p) :
    (∀ v ∈ gfList, gfAt G s' (num v) p = (T.comp S.cf S.origin v).value S.sys (xxAt G S.sys p)) ∧
    (∀ i, G.Ghost p → gfAt G s' (num (.lambdaU i)) p = 0) ∧
    (∀ i, ¬ G.Ghost p → gfAt G s' (num (.lambdaU i)) p = lambdaExpr (rfmAt S.sys.scale (xxAt G S.sys p))
      (hSymbols W (dxx G S.sys) (fun a b q => (T.comp S.cf S.origin (.hDD a b)).value S.sys (xxAt G S.sys q)) p) i) ∧
    ∀ gf, nGfs ≤ gf → gfAt G s' gf p = gfAt G s gf p := by
  obtain ⟨s1, s2, r1, r2, r3⟩ : ∃ s1 s2, RunsLoop (storeAsgs G num S nan) s s1 ∧ RunsLoop (innerAsgs G bc nGfs types) s1 s2 ∧
      RunsLoop (lambdaAsgs G num S.sys W) s2 s' := by
    cases hr with
    | cons a b => cases b with
      | cons b c => exact ⟨_, _, a, b, runs_single c⟩
  -- after the first loop
  have st : ∀ q, G.Has q → (G.Ghost q → Outer G (mapsOf eps G S.sys eig) q) → ∀ v ∈ vars,
      gfAt G s1 (num v) q = (T.comp S.cf S.origin v).value S.sys (xxAt G S.sys q) := by
    intro q hq ho v hv
    obtain ⟨r, c1, c2⟩ := C102_values hP hS (hreg q hq ho) (hID q hq) (hT _)
    rcases List.mem_append.1 hv with h | h
    · have mem : (⟨G.pt (num v) (G.at q), [], fun _ => ((convert S (xxAt G S.sys q)).map fun r => r.get v).getD (nan q v)⟩ : Asg) ∈
          storeAsgs G num S nan :=
        List.mem_flatMap.2 ⟨q, mem_all.2 hq, List.mem_append_left _ (List.mem_map.2 ⟨v, h, rfl⟩)⟩
      have := runsLoop_dst (raceFree_store hL S nan) r1 mem
      refine this.trans ?_
      simp only [c1, Option.map_some, Option.getD_some]
      exact c2.values v
    · obtain ⟨i, hi, rfl⟩ := List.mem_map.1 h
      have mem : (⟨G.pt (num (.lambdaU i)) (G.at q), [], fun _ => 0⟩ : Asg) ∈ storeAsgs G num S nan :=
        List.mem_flatMap.2 ⟨q, mem_all.2 hq, List.mem_append_right _ (List.mem_map.2 ⟨i, hi, rfl⟩)⟩
      refine (runsLoop_dst (raceFree_store hL S nan) r1 mem).trans ?_
      rw [← c2.values (.lambdaU i)]
      rfl
  -- after the inner boundary conditions
  have inn : ∀ v ∈ vars, ∀ q, G.Has q → gfAt G s2 (num v) q = (T.comp S.cf S.origin v).value S.sys (xxAt G S.sys q) := by
    intro v hv
    obtain ⟨g, base, g1, g2, g3⟩ := hL.gf v hv
    exact C68_field hP hS.sys he hE hε hG hbc r2 (hL.lt v hv) (T.comp S.cf S.origin v)
      (by rw [comp_indices]; exact g1) g2 g3 fun q hq ho => st q hq ho v hv
  have keep : ∀ gf, (∀ i, ¬ G.Ghost p → gf ≠ num (.lambdaU i)) → gfAt G s' gf p = gfAt G s2 gf p := by
    intro gf hgf
    refine runsLoop_other r3 fun c => ?_
    rw [lambda_dst] at c
    obtain ⟨q, hq, c⟩ := List.mem_flatMap.1 c
    obtain ⟨v, hv, c⟩ := List.mem_map.1 c
    obtain ⟨i, -, rfl⟩ := List.mem_map.1 hv
    obtain ⟨e1, rfl⟩ := Grid.pt_inj (int_has (mem_int.1 hq)) hp c
    exact hgf i (fun hgp => hgp.2 (mem_int.1 hq)) e1.symm
  have lam0 : ∀ i, gfAt G s2 (num (.lambdaU i)) p = 0 := fun i => by
    rw [inn _ (mem_lambda i) p hp]
    simp [Slice.comp, Comp.value]
  refine ⟨fun v hv => ?_, fun i hg => ?_, fun i hg => ?_, fun gf hgf => ?_⟩
  · rw [keep _ fun i _ c => gf_ne_lambda hv i (hL.inj _ (gf_sub hv) _ (mem_lambda i) c)]
    exact inn v (gf_sub hv) p hp
  · rw [keep _ fun i h => absurd hg h]
    exact lam0 i
  · have hpi : ∀ d, (G.g : ℤ) ≤ p d ∧ p d < G.n d - G.g := by
      unfold Grid.Ghost at hg
      push Not at hg
      intro d
      have := hg hp d
      omega
    have mem : readsAsg (G.pt (num (.lambdaU i)) (G.at p)) (hReads G num W p) (fun s =>
        lambdaExpr (rfmAt S.sys.scale (xxAt G S.sys p))
          (hSymbols W (dxx G S.sys) (fun a b q => s (G.pt (num (hVar a b)) (G.at q))) p) i) ∈ lambdaAsgs G num S.sys W :=
      List.mem_flatMap.2 ⟨p, mem_int.2 hpi, List.mem_map.2 ⟨i, mem_three i, rfl⟩⟩
    refine (runsLoop_dst (raceFree_lambda hL S.sys hW) r3 mem).trans ?_
    have val : ∀ a b q, G.Has q → s2 (G.pt (num (hVar a b)) (G.at q)) =
        (T.comp S.cf S.origin (.hDD a b)).value S.sys (xxAt G S.sys q) := fun a b q hq => by
      rw [← symm_value (hT _) rfl a b]
      exact inn _ (gf_sub mem_vars_h) q hq
    show lambdaExpr _ (hSymbols _ _ _ _) i = _
    refine congrArg (fun g => lambdaExpr (rfmAt S.sys.scale (xxAt G S.sys p)) g i) ?_
    refine hSymbols_congr (fun a b => ?_) fun a b d k hk => ?_
    · show (((hReads G num W p).zip ((hReads G num W p).map s2)).lookup _).getD 0 = _
      rw [lookup_zip s2 (pt_mem a b)]
      exact val a b p hp
    · show (((hReads G num W p).zip ((hReads G num W p).map s2)).lookup _).getD 0 = _
      rw [lookup_zip s2 (move_mem a b d hk)]
      exact val a b _ (move_has hW hpi d hk)
  · have hne : ∀ v ∈ vars, gf ≠ num v := fun v hv c => by have := hL.lt v hv; omega
    rw [keep _ fun i _ => hne _ (mem_lambda i)]
    obtain ⟨-, hm, -⟩ := C67_set_up hP hS.sys he hE hε hG
    rw [(C66_inner hm hbc r2).2.2 p hp gf hgf]
    refine runsLoop_other r1 fun c => ?_
    rw [store_dst] at c
    obtain ⟨q, hq, c⟩ := List.mem_flatMap.1 c
    obtain ⟨v, hv, c⟩ := List.mem_map.1 c
    exact hne v hv (Grid.pt_inj (mem_all.1 hq) hp c).1.symm

/-- None of the parallel loops has a race. -/
theorem C102_no_races : ∀ l ∈ reader G bc nGfs types num S W nan, RaceFree l := by
  obtain ⟨-, hm, -⟩ := C67_set_up hP hS.sys he hE hε hG
  intro l hl
  rcases List.mem_cons.1 hl with rfl | hl
  · exact raceFree_store hL S nan
  rcases List.mem_cons.1 hl with rfl | hl
  · exact C66_no_races hm hbc nGfs types
  rcases List.mem_cons.1 hl with rfl | hl
  · exact raceFree_lambda hL S.sys hW
  · cases hl

end

/-- The expression in `C102_grid` is that which the BSSN equations have for `lambdaU`: rescaled back it is the difference of
the contracted Christoffel symbols. -/
theorem C102_lambda {R : Rfm} (hR : ∀ i, R.ReU i ≠ 0) (G : Gfs) (i : Fin 3) : lambdaExpr R G i * R.ReU i = DGammaU R G i := by
  unfold lambdaExpr
  rw [div_mul_cancel₀ _ (hR i)]
  rfl

/-- On the grids of `SinhSymTP`, whose `Cart_to_xx` is wrong (C59), the values are those for the basis at another point. -/
theorem C102_sinhSymTP {P : CoordParams} (hP : ValidParams P) {S : Setup} (h1 : S.name = (c% "SinhSymTP"))
    (h2 : S.sys = sinhSymTP P.amax P.waa P.b) {T : Slice} {x : Vec} (hx : InDomain S.sys x)
    (hd : admToCart S.idName S.idSys (S.sys.toCart x + S.origin) (S.ID (S.sys.toCart x + S.origin)) =
      some (T.data (S.sys.toCart x + S.origin))) :
    convert S x = rescale S.sys ![sinhv1 (x 0) P.amax P.waa, x 1, x 2]
      (toBssnCart S.cf (T.data (S.sys.toCart x + S.origin))) := by
  have ex : xxToCart S.sys S.origin x = S.sys.toCart x + S.origin := rfl
  unfold convert
  simp only [ex, hd, Option.bind_some]
  unfold toRescaled gridXx
  rw [if_neg (by rw [h1]; decide)]
  have hg : S.sys.ofCart = some (ofCartSymTP P.b) := by rw [h2]; rfl
  have e : (fun i => (S.sys.toCart x + S.origin) i - S.origin i) = S.sys.toCart x := by
    funext i; simp
  rw [hg, Option.map_some, Option.bind_some, e, h2, C59_sinhSymTP hP (h2 ▸ hx)]

/-! ### A case that meets the hypotheses -/

/-- The number of a gridfunction. -/
def demoNum (v : Var) : ℕ := vars.idxOf v

/-- Record of a gridfunction. -/
def demoGF (v : Var) : Verif.Grid.GF :=
  { name := (c% "gf") ++ v.indices.map Nat.digitChar, group := (c% "EVOL"), rank := v.indices.length, dimension := 3,
    fInfinity := (c% "0.0"), wavespeed := (c% "1.0"), isBasename := false }

/-- Parity types. -/
def demoTypes (n : ℕ) : Fin 10 := match (vars[n]?).map fun v => Verif.Grid.parityOf (demoGF v) with
  | some (.ok t) => Fin.ofNat 10 t
  | _ => 0

theorem demo_layout : Layout demoNum 24 demoTypes := by
  refine ⟨by decide, ?_, fun v hv => ⟨demoGF v, (c% "gf"), ⟨rfl, rfl, fun i hi => ?_⟩, rfl, ?_⟩⟩
  · intro v hv w hw e
    exact (List.idxOf_inj hv).1 e
  · show i < 3
    cases v <;> simp [Var.indices] at hi <;> omega
  · revert v
    decide

/-- A conformally flat slice with a shift. -/
noncomputable def demoSlice : Slice where
  alpha _ := 1
  gamma _ i j := if i = j then 4 else 0
  K _ _ _ := 0
  beta y := ![y 1, -y 0, 0]
  B _ := 0
  T _ _ _ := 0

theorem demo_slice (p : Vec) : demoSlice.Valid p := by
  refine ⟨fun i j => ?_, fun _ _ => rfl, ?_⟩
  · simp only [demoSlice, eq_comm]
  · rw [Matrix.det_fin_three]
    simp [demoSlice]

/-- Its Cartesian components. -/
noncomputable def demoData (y : Vec) : IDData := demoSlice.data y

theorem cart_pd (lo hi : Vec) (x : Vec) (a i : Fin 3) : pd i (fun y => (cartesian lo hi).toCart y a) x = if a = i then 1 else 0 := by
  have h : jacobian (cartesian lo hi) x a i = _ := jacobian_eq (basis_cartesian lo hi x) a i
  refine h.trans ?_
  fin_cases a <;> fin_cases i <;> simp [cartesian]

theorem demo_represents (lo hi : Vec) (x : Vec) : Represents (cartesian lo hi) x demoSlice x (demoData x) := by
  refine ⟨rfl, ?_, ?_, ?_, ?_, ?_⟩
  · funext i j
    simp [compDD, cart_pd, demoData, Slice.data]
  · funext i j
    simp [compDD, cart_pd, demoData, Slice.data]
  · intro a
    simp [cart_pd, demoData, Slice.data]
  · intro a
    simp [cart_pd, demoData, Slice.data]
  · intro a b
    simp [demoData, Slice.data, demoSlice]

/-- Spherical grid, Cartesian initial data. -/
noncomputable def demoSetup : Setup where
  name := (c% "Spherical")
  sys := spherical demo.rmax
  idName := (c% "Cartesian")
  idSys := cartesian demo.lo demo.hi
  origin := ![1, 2, 3]
  cf := .W
  ID := fun q => demoData ![q 0, q 1, q 2]

theorem demo_setup : demoSetup.Good demo :=
  ⟨choose_spherical demo, rfl, by decide, rfl, rfl, by decide⟩

/-- After a run on the spherical grid the rotating shift is there at all points, ghost points too. -/
example (nan : Idx → Var → ℝ) (s : Mem) : ∃ bc s', setUp demoGrid (mapsOf (1 / 10 ^ 8) demoGrid (spherical demo.rmax)
      (spherical demo.rmax)) = some bc ∧ Runs (reader demoGrid bc 24 demoTypes demoNum demoSetup ⟨2, fun k => k⟩ nan) s s' ∧
    ∀ p, demoGrid.Has p → gfAt demoGrid s' (demoNum (.vetU 0)) p =
      (demoSlice.comp .W ![1, 2, 3] (.vetU 0)).value (spherical demo.rmax) (xxAt demoGrid (spherical demo.rmax) p) := by
  obtain ⟨bc, hbc⟩ := (C67_set_up (eps := 1 / 10 ^ 8) demo_valid (choose_spherical demo) (by decide) (choose_spherical demo)
    (by positivity) demo_good).1
  obtain ⟨s', hr⟩ := runs_exists (reader demoGrid bc 24 demoTypes demoNum demoSetup ⟨2, fun k => k⟩ nan) s
  refine ⟨bc, s', hbc, hr, fun p hp => ?_⟩
  refine (C102_grid (S := demoSetup) (eps := 1 / 10 ^ 8) (T := demoSlice) demo_valid demo_setup (by decide) (choose_spherical demo) (by positivity)
    demo_good hbc demo_layout (W := ⟨2, fun k => k⟩) (le_refl 2) (fun q hq ho => ?_) (fun q hq => ?_) demo_slice hr hp).1 _ (by decide)
  · exact regular_settled demo_valid (choose_spherical demo) (by decide) (choose_spherical demo) (by positivity) demo_good
      rfl (by decide) hq ho
  · exact C102_exact_cartesian (P := demo) (e := demoData) rfl rfl rfl rfl (demo_represents _ _) _

end Verif.Reader
