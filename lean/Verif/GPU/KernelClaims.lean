import Verif.GPU.Kernel
import Mathlib.Tactic.Ring
import Mathlib.Tactic.Linarith

/-!
# Kernels and copies between host and graphics card (C114)
-/
namespace Verif.GPU.Kernel

/-! ### Specification -/

/-- A call of C: the name, the launch settings, and the arguments separated by commas. -/
def wantedCall (name settings : Text) (args : List Text) : Text := name ++ settings ++ (args.intersperse ", ".toList).flatten ++ ");\n".toList

/-- Gridfunction `g` in memory that holds gridfunctions one after the other. -/
def gf {V : Type*} (tot : ℕ) (mem : ℕ → V) (g : ℕ) : ℕ → V := fun p => mem (tot * g + p)

/-! ### Calls -/

theorem args_text : ∀ ps : List (Text × Text), ps ≠ [] →
    (ps.flatMap fun p => p.1 ++ ", ".toList) = ((ps.map Prod.fst).intersperse ", ".toList).flatten ++ ", ".toList
  | [], h => absurd rfl h
  | [p], _ => by simp
  | p :: q :: ps, _ => by
    have ih := args_text (q :: ps) (by simp)
    rw [List.flatMap_cons, ih]
    simp [List.append_assoc]

/-- **C114** (call): the call of a kernel with parameters passes to each parameter of the declaration the variable of the same name, in the same
order, after the launch settings. Missing for the full property: kernels without parameters, where the text is broken. -/
theorem C114_call_partial (a : Args) (m : Made) (hm : make a = some m) (h : m.params ≠ []) :
    ∃ names : List Text, call a m = wantedCall a.name m.settings names ++
        (if a.check then "cudaCheckErrors(cudaKernel, \"".toList ++ a.name ++ " failure\");\n".toList else []) ∧
      ∃ types : List Text, types.length = names.length ∧ declared m = commas (List.zipWith (fun ty n => ty ++ " ".toList ++ n) types names) ∧
        m.params = names.zip types ∧ m.params = a.allParams := by
  refine ⟨m.params.map Prod.fst, ?_, m.params.map Prod.snd, by simp, ?_, ?_, ?_⟩
  · unfold call wantedCall dropLast2
    rw [args_text _ h]
    congr 2
    rw [← List.append_assoc, List.length_append]
    exact List.take_left' (by simp)
  · unfold declared
    congr 1
    induction m.params with
    | nil => rfl
    | cons p ps ih => simpa using ih
  · induction m.params with
    | nil => rfl
    | cons p ps ih => simpa using ih
  · unfold make at hm
    split at hm
    · split at hm
      · exact absurd hm (Option.some_ne_none _).symm
      · rw [← Option.some.inj hm]
    · rw [← Option.some.inj hm]

/-- Leaving out one name does not change what is found for the others. -/
theorem lookup_filter_ne (k s : Text) (h : k ≠ s) : ∀ ps : List (Text × Text), (ps.filter fun p => p.1 ≠ s).lookup k = ps.lookup k
  | [] => rfl
  | (n, t) :: ps => by
    have ih := lookup_filter_ne k s h ps
    by_cases e : n = s
    · subst e
      simp only [ne_eq, not_true, decide_false, Bool.false_eq_true, not_false_eq_true, List.filter_cons_of_neg, List.lookup]
      rw [ih, show (k == n) = false from by simpa using h]
    · rw [List.filter_cons_of_pos (by simpa using e)]
      simp only [List.lookup]
      rw [ih]

/-- **C114** (types): each parameter of the caller is declared with the type given by the caller, and the only other parameter is the number of
the stream, of type `const size_t`. -/
theorem C114_types (a : Args) (m : Made) (hm : make a = some m) (k : Text) :
    (∀ ty, a.params.lookup k = some ty → m.params.lookup k = some ty) ∧
      (a.params.lookup k = none → ∀ ty, m.params.lookup k = some ty → k = "streamid".toList ∧ ty = "const size_t".toList ∧ a.streamidParam = true) := by
  have hp : m.params = a.allParams := by
    unfold make at hm
    split at hm
    · split at hm
      · exact absurd hm (Option.some_ne_none _).symm
      · rw [← Option.some.inj hm]
    · rw [← Option.some.inj hm]
  rw [hp]
  unfold Args.allParams
  split
  · next hs =>
    by_cases hk : k = "streamid".toList
    · subst hk
      cases hl : a.params.lookup "streamid".toList with
      | some t => exact ⟨fun ty h => by simpa [List.lookup] using h, fun h => absurd h (by simp)⟩
      | none =>
        refine ⟨fun ty h => absurd h (by simp), fun _ ty h => ⟨rfl, ?_, hs.2⟩⟩
        simp only [List.lookup, beq_self_eq_true, Option.some.injEq] at h
        exact h.symm
    · have hb : (k == "streamid".toList) = false := by simpa using hk
      cases hl : a.params.lookup "streamid".toList with
      | some t =>
        simp only [List.lookup, hb]
        rw [lookup_filter_ne _ _ hk]
        exact ⟨fun ty h => h, fun h ty h' => absurd (h.symm.trans h') (by simp)⟩
      | none =>
        simp only [List.lookup, hb]
        exact ⟨fun ty h => h, fun h ty h' => absurd (h.symm.trans h') (by simp)⟩
  · exact ⟨fun ty h => h, fun h ty h' => absurd (h.symm.trans h') (by simp)⟩

/-- **C114** (call, finding): without parameters the last two characters before the arguments are lost. -/
theorem C114_call_violation (a : Args) (m : Made) (hm : make a = some m) (hp : m.params = []) (hn : a.name ≠ []) (hc : a.check = false) :
    call a m ≠ wantedCall a.name m.settings [] := by
  intro e
  have hl := congrArg List.length e
  have h1 : 1 ≤ m.settings.length := by
    unfold make at hm
    split at hm
    · split at hm
      · exact absurd hm (Option.some_ne_none _).symm
      · rw [← Option.some.inj hm]; exact Nat.le_refl 1
    · rw [← Option.some.inj hm]
      unfold launchSettings
      rw [List.length_append]
      exact Nat.le_add_left_of_le (by decide)
  have h2 : 1 ≤ a.name.length := List.length_pos_iff.2 hn
  simp [call, wantedCall, dropLast2, hp, hc] at hl
  omega

/-- A kernel without parameters whose call is broken. -/
example : ∃ m, make ⟨"setup".toList, [], "__host__".toList, none, true, false⟩ = some m ∧
    call ⟨"setup".toList, [], "__host__".toList, none, true, false⟩ m = "setu);\n".toList := ⟨_, rfl, by decide⟩

/-- A kernel with parameters, a launch, a stream and default blocks. -/
example : ∃ m, make ⟨"rhs".toList, [("x".toList, "REAL *".toList)], "__global__".toList, some ⟨["32".toList], [], some [], none⟩, true, false⟩ = some m ∧
    call ⟨"rhs".toList, [("x".toList, "REAL *".toList)], "__global__".toList, some ⟨["32".toList], [], some [], none⟩, true, false⟩ m =
      "rhs<<<blocks_per_grid,threads_per_block,sm,streams[streamid]>>>(streamid, x);\n".toList ∧ declared m = "const size_t streamid,REAL * x".toList :=
  ⟨_, rfl, by decide, by decide⟩

/-! ### Launch settings -/

/-- **C114** (launch required): the exception is raised exactly for kernels without launch settings. -/
theorem C114_required (a : Args) : make a = none ↔ a.decorators = "__global__".toList ∧ a.launch = none := by
  unfold make
  cases h : a.launch with
  | none =>
    dsimp only
    by_cases hd : a.decorators = "__global__".toList
    · rw [if_pos hd]; exact ⟨fun _ => ⟨hd, rfl⟩, fun _ => rfl⟩
    · rw [if_neg hd]; exact ⟨fun e => absurd e (Option.some_ne_none _), fun e => absurd e.1 hd⟩
  | some L => exact ⟨fun e => absurd e (Option.some_ne_none _), fun e => absurd e.2 (Option.some_ne_none _)⟩

theorem pad3_length (l : List Text) : 3 ≤ (pad3 l).length := by simp [pad3]; omega

theorem pad3_pad3 (l : List Text) : pad3 (pad3 l) = pad3 l := by
  have h := pad3_length l
  have : 3 - (pad3 l).length = 0 := by omega
  show pad3 l ++ List.replicate (3 - (pad3 l).length) "1".toList = pad3 l
  rw [this, List.replicate_zero, List.append_nil]

theorem pad3_entry (l : List Text) (i : ℕ) (hi : i < 3) : entry l i = if h : i < l.length then l[i] else "1".toList := by
  unfold entry pad3
  rw [List.getD_eq_getElem?_getD]
  by_cases h : i < l.length
  · rw [List.getElem?_append_left h, dif_pos h, List.getElem?_eq_getElem h]; rfl
  · rw [List.getElem?_append_right (by omega), dif_neg h, List.getElem?_replicate, if_pos (by omega)]; rfl

theorem smText_again (stream sm : Option Text) : smText stream (smText stream sm).2 = smText stream sm := by
  have h0 : ¬isDefault "0".toList := by decide
  cases sm with
  | none =>
    by_cases h : (streamText stream).isSome
    · simp only [smText, h, or_true, if_true, h0, if_false]; rfl
    · simp [smText, h]
  | some t =>
    by_cases h : isDefault t
    · simp only [smText, Option.isSome_some, true_or, if_true, h, h0, if_false]; rfl
    · simp [smText, h]

/-- **C114** (settings used again): the settings of the caller are changed in place, but a kernel made with them again has the same launch and the same
call. -/
theorem C114_again (a : Args) (L : Launch) (hL : a.launch = some L) : ∃ m m', make a = some m ∧ m.launch = some (launchAfter L) ∧
    make { a with launch := m.launch } = some m' ∧ m'.block = m.block ∧ m'.settings = m.settings ∧ call a m' = call a m ∧ m'.launch = m.launch := by
  have hb : launchBlock (launchAfter L) = launchBlock L := by
    unfold launchBlock launchAfter
    have e1 : threadsText (pad3 L.threads) = threadsText L.threads := by unfold threadsText entry; rw [pad3_pad3]
    have e2 : blocksText (if 0 < L.blocks.length then pad3 L.blocks else L.blocks) = blocksText L.blocks := by
      by_cases h : 0 < L.blocks.length
      · rw [if_pos h]
        unfold blocksText
        rw [if_pos h, if_pos (by have := pad3_length L.blocks; omega), pad3_pad3]
      · rw [if_neg h]
    simp only [e1, e2, smText_again]
  have hs : launchSettings (launchAfter L) = launchSettings L := by
    unfold launchSettings launchAfter
    simp only [smText_again]
  have ha : launchAfter (launchAfter L) = launchAfter L := by
    unfold launchAfter
    simp only [smText_again, pad3_pad3]
    congr 1
    by_cases h : 0 < L.blocks.length
    · simp only [h, if_true, pad3_pad3]
      rw [if_pos (by have := pad3_length L.blocks; omega)]
    · simp only [h, if_false]
  refine ⟨⟨launchBlock L, launchSettings L, a.allParams, some (launchAfter L)⟩, ⟨launchBlock L, launchSettings L, a.allParams, some (launchAfter L)⟩, ?_, rfl, ?_, rfl, rfl, rfl, rfl⟩
  · unfold make; rw [hL]
  · unfold make
    simp only [hb, hs, ha]
    rfl

/-- **C114** (stream): the launch names a stream exactly if the settings have one, and then it also gives the size of the shared memory before it, as
CUDA requires; both are declared in the text before the launch. -/
theorem C114_stream (L : Launch) : ∃ sm st : Bool,
    launchSettings L = "<<<blocks_per_grid,threads_per_block".toList ++ (if sm then ",sm".toList else []) ++ (if st then ",streams[streamid]".toList else []) ++ ">>>(".toList ∧
    (st = true ↔ L.stream.isSome) ∧ (sm = true ↔ L.sm.isSome ∨ L.stream.isSome) ∧
    (sm = true → ∃ pre v post, launchBlock L = pre ++ "size_t sm = ".toList ++ v ++ ";".toList ++ post) ∧
    (st = true → ∃ pre v, launchBlock L = pre ++ "size_t streamid = ".toList ++ v ++ ";".toList) := by
  have hst : (streamText L.stream).isSome = L.stream.isSome := by cases L.stream <;> rfl
  have hsm : (smText L.stream L.sm).1.isSome = true ↔ L.sm.isSome ∨ L.stream.isSome := by
    unfold smText
    rw [hst]
    by_cases h : L.sm.isSome = true ∨ L.stream.isSome = true
    · rw [if_pos h]
      cases hs : L.sm with
      | none => rw [hs] at h; simpa using h
      | some t => by_cases hd : isDefault t <;> simp [hd]
    · rw [if_neg h]; simpa using h
  refine ⟨(smText L.stream L.sm).1.isSome, (streamText L.stream).isSome, rfl, by rw [hst], hsm, ?_, ?_⟩
  · intro h
    have : ∃ v, (smText L.stream L.sm).1 = some ("size_t sm = ".toList ++ v ++ ";".toList) := by
      unfold smText at h ⊢
      by_cases hc : L.sm.isSome = true ∨ (streamText L.stream).isSome = true
      · rw [if_pos hc]
        cases L.sm with
        | none => exact ⟨"0".toList, rfl⟩
        | some t =>
          by_cases hd : isDefault t
          · exact ⟨"0".toList, by simp only [hd, if_true]; rfl⟩
          · exact ⟨t, by simp only [hd, if_false]⟩
      · rw [if_neg hc] at h; cases h
    obtain ⟨v, hv⟩ := this
    refine ⟨threadsText L.threads ++ "\n".toList ++ blocksText L.blocks ++ "\n".toList, v, (streamText L.stream).getD [], ?_⟩
    unfold launchBlock
    rw [hv]
    simp only [Option.getD_some, List.append_assoc]
  · intro h
    have : ∃ v, streamText L.stream = some ("size_t streamid = ".toList ++ v ++ ";".toList) := by
      cases hs : L.stream with
      | none => rw [hs] at h; cases h
      | some t =>
        by_cases hd : isDefault t
        · exact ⟨"params->grid_idx % nstreams".toList, by simp only [streamText, hd, if_true]; rfl⟩
        · exact ⟨t, by simp only [streamText, hd, if_false]⟩
    obtain ⟨v, hv⟩ := this
    refine ⟨threadsText L.threads ++ "\n".toList ++ blocksText L.blocks ++ "\n".toList ++ ((smText L.stream L.sm).1.getD []), v, ?_⟩
    unfold launchBlock
    rw [hv]
    simp only [Option.getD_some, List.append_assoc]

/-- **C114** (threads): each of the three directions has the number of threads given, and one where none is given. -/
theorem C114_threads (L : Launch) : ∃ x y z rest : Text, launchBlock L = "\nconst size_t threads_in_x_dir = ".toList ++ x ++
    ";\nconst size_t threads_in_y_dir = ".toList ++ y ++ ";\nconst size_t threads_in_z_dir = ".toList ++ z ++
    ";\ndim3 threads_per_block(threads_in_x_dir, threads_in_y_dir, threads_in_z_dir);".toList ++ rest ∧
    x = L.threads.getD 0 "1".toList ∧ y = L.threads.getD 1 "1".toList ∧ z = L.threads.getD 2 "1".toList := by
  have h : ∀ i < 3, entry L.threads i = L.threads.getD i "1".toList := by
    intro i hi
    rw [pad3_entry _ _ hi, List.getD_eq_getElem?_getD]
    split
    · rename_i h; rw [List.getElem?_eq_getElem h]; rfl
    · rename_i h; rw [List.getElem?_eq_none (by omega)]; rfl
  refine ⟨entry L.threads 0, entry L.threads 1, entry L.threads 2, "\n".toList ++ blocksText L.blocks ++ "\n".toList ++ ((smText L.stream L.sm).1.getD []) ++ ((streamText L.stream).getD []), ?_,
    h 0 (by omega), h 1 (by omega), h 2 (by omega)⟩
  unfold launchBlock threadsText
  simp only [List.append_assoc]

/-- **C114** (cover): with the default number of blocks every point of the direction has exactly one thread, and no block is without points. -/
theorem C114_cover (n t : ℕ) (ht : 0 < t) : (∀ p < n, ∃! bt : ℕ × ℕ, bt.1 < blocksIn n t ∧ bt.2 < t ∧ bt.1 * t + bt.2 = p) ∧
    ∀ b < blocksIn n t, b * t < n := by
  have h1 := Nat.div_add_mod (n + t - 1) t
  have h2 := Nat.mod_lt (n + t - 1) ht
  constructor
  · intro p hp
    refine ⟨(p / t, p % t), ⟨?_, Nat.mod_lt _ ht, by simpa [Nat.mul_comm] using Nat.div_add_mod p t⟩, ?_⟩
    · unfold blocksIn
      refine (Nat.div_lt_iff_lt_mul ht).2 ?_
      rw [Nat.mul_comm]
      omega
    · rintro ⟨b, s⟩ ⟨_, hs, e⟩
      simp only at hs e
      subst e
      have e1 : (b * t + s) / t = b := by
        rw [Nat.mul_comm, Nat.mul_add_div ht, Nat.div_eq_of_lt hs, Nat.add_zero]
      have e2 : (b * t + s) % t = s := by
        rw [Nat.mul_comm, Nat.mul_add_mod, Nat.mod_eq_of_lt hs]
      rw [e1, e2]
  · intro b hb
    unfold blocksIn at hb
    have h3 : (b + 1) * t ≤ (n + t - 1) / t * t := Nat.mul_le_mul_right t hb
    rw [Nat.mul_comm ((n + t - 1) / t)] at h3
    rw [Nat.add_mul, Nat.one_mul] at h3
    omega

/-! ### Copies -/

variable {V : Type*}

theorem memcpy_gf (tot : ℕ) (dst src : ℕ → V) (i j g p : ℕ) (hp : p < tot) :
    gf tot (memcpy dst src (tot * i) (tot * j) tot) g p = if g = i then gf tot src j p else gf tot dst g p := by
  unfold gf memcpy
  by_cases h : g = i
  · subst h
    rw [if_pos ⟨by omega, by omega⟩, if_pos rfl]
    congr 1
    omega
  · rw [if_neg h, if_neg]
    rintro ⟨h1, h2⟩
    rcases Nat.lt_or_gt_of_ne h with h' | h'
    · have := Nat.mul_le_mul_left tot (Nat.succ_le_of_lt h')
      rw [Nat.mul_succ] at this
      omega
    · have := Nat.mul_le_mul_left tot (Nat.succ_le_of_lt h')
      rw [Nat.mul_succ] at this
      omega

/-- **C114** (to the host): the gridfunction of the host with the given index becomes equal to the gridfunction of the card with the given index, and
the other gridfunctions of the host keep their values. -/
theorem C114_to_host (tot : ℕ) (host gpu : ℕ → V) (hostIdx gpuIdx g p : ℕ) (hp : p < tot) :
    gf tot (copyToHost tot host gpu hostIdx gpuIdx) g p = if g = hostIdx then gf tot gpu gpuIdx p else gf tot host g p :=
  memcpy_gf tot host gpu hostIdx gpuIdx g p hp

/-- **C114** (to the card): if both indices are the same, the gridfunction of the card becomes equal to that of the host, and the others keep their
values. Missing for the full property: different indices, where the claim is false. -/
theorem C114_to_device_partial (tot : ℕ) (host gpu : ℕ → V) (idx g p : ℕ) (hp : p < tot) :
    gf tot (copyToDevice tot host gpu idx idx) g p = if g = idx then gf tot host idx p else gf tot gpu g p :=
  memcpy_gf tot gpu host idx idx g p hp

/-- **C114** (to the card, finding): with different indices the gridfunction of the card that should receive the values keeps its own, and the
gridfunction of the card with the index of the host is overwritten. -/
theorem C114_to_device_violation (tot : ℕ) (host gpu : ℕ → V) (hostIdx gpuIdx p : ℕ) (h : hostIdx ≠ gpuIdx) (hp : p < tot) :
    gf tot (copyToDevice tot host gpu hostIdx gpuIdx) gpuIdx p = gf tot gpu gpuIdx p ∧
      gf tot (copyToDevice tot host gpu hostIdx gpuIdx) hostIdx p = gf tot host gpuIdx p := by
  have key := fun g => memcpy_gf tot gpu host hostIdx gpuIdx g p hp
  exact ⟨(key gpuIdx).trans (if_neg (Ne.symm h)), (key hostIdx).trans (if_pos rfl)⟩

/-- **C114** (streams): the stream of a copy exists. -/
theorem C114_copy_stream (gridIdx gpuIdx nstreams : ℕ) (h : 0 < nstreams) : streamOf gridIdx gpuIdx nstreams < nstreams := Nat.mod_lt _ h

example : gf 2 (copyToHost 2 (fun k => k) (fun k => 100 + k) 0 3) 0 1 = 107 ∧ gf 2 (copyToDevice 2 (fun k => k) (fun k => 100 + k) 0 3) 3 1 = 107 := by decide

end Verif.GPU.Kernel
