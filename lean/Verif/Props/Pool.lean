import Verif.Lemmas.Pool
import Verif.Props.SpoilExperiments

/-!
# Property C101: each experiment with a spoiled initial guess has its own random numbers and its own files

The experiments of `optimization_experiments.py` are run by up to eight processes, which are forked after the generator of `numpy` has been seeded.
-/

namespace HandEye

open Spec

theorem startsAt_get {inputs : List ExperimentInput} {process : ℕ → ℕ} {P f e : ℕ} (h : e < inputs.length) {s : ℕ} {a : ExperimentInput}
    (ha : inputs[e]? = some a)
    (hs : s = f + (earlier (fun j => process j == process (e / chunkSize inputs.length (numProcesses inputs.length)))
      (e / chunkSize inputs.length (numProcesses inputs.length)) * chunkSize inputs.length (numProcesses inputs.length) +
      e % chunkSize inputs.length (numProcesses inputs.length)) * (P * 8)) : StartsAt inputs process P f a s := by
  refine startsAt_iff.mpr ⟨_, _, Nat.mod_lt _ (chunkSize_pos (by omega)), ?_, hs⟩
  rw [Nat.div_add_mod']
  exact ha

/-- Whatever the assignment to the processes: each experiment is run, and only once (by one process, after a certain number of numbers of `numpy`). -/
theorem C101_once (r : OffsetRanges) (n : ℕ) (hn : 0 < n) (inputs : List ExperimentInput) (hi : experimentInputs r n = .ok inputs)
    (process : ℕ → ℕ) (num_pairs forked : ℕ) :
    (∀ input ∈ inputs, ∃ s, StartsAt inputs process num_pairs forked input s) ∧
    (∀ input s, StartsAt inputs process num_pairs forked input s → input ∈ inputs) ∧
    ∀ input s s', StartsAt inputs process num_pairs forked input s → StartsAt inputs process num_pairs forked input s' → s = s' := by
  obtain ⟨hnum, -⟩ := inputs_numbered hn hi
  refine ⟨?_, ?_, ?_⟩
  · intro a ha
    obtain ⟨e, he, rfl⟩ := List.getElem_of_mem ha
    exact ⟨_, startsAt_get he (List.getElem?_eq_getElem he) rfl⟩
  · intro a s h
    obtain ⟨k, r, -, hg, -⟩ := startsAt_iff.mp h
    exact List.mem_of_getElem? hg
  · intro a s s' h h'
    obtain ⟨k, r, hr, hg, rfl⟩ := startsAt_iff.mp h
    obtain ⟨k', r', hr', hg', rfl⟩ := startsAt_iff.mp h'
    have e := (hnum _ _ hg).symm.trans (hnum _ _ hg')
    have ek : k = k' := by
      have := congrArg (· / chunkSize inputs.length (numProcesses inputs.length)) e
      simpa [Nat.mul_comm k, Nat.mul_comm k', Nat.mul_add_div (Nat.zero_lt_of_lt hr), Nat.div_eq_of_lt hr, Nat.div_eq_of_lt hr'] using this
    subst ek
    have er : r = r' := by omega
    rw [er]

/-- So the draws are determined: there are draws as the processes give them. -/
theorem C101_draws (r : OffsetRanges) (n : ℕ) (hn : 0 < n) (inputs : List ExperimentInput) (hi : experimentInputs r n = .ok inputs)
    (process : ℕ → ℕ) (num_pairs forked : ℕ) (numpy : ℕ → ℝ) (own : ℕ → ℕ → Bool × ℝ) :
    ∃ draws, PoolDraws inputs process num_pairs forked numpy own draws ∧ ∀ draws', PoolDraws inputs process num_pairs forked numpy own draws' →
      ∀ e < inputs.length, ∀ i < num_pairs, draws' e i = draws e i := by
  classical
  obtain ⟨hnum, -⟩ := inputs_numbered hn hi
  obtain ⟨hall, hmem, huniq⟩ := C101_once r n hn inputs hi process num_pairs forked
  have hsame : ∀ a ∈ inputs, ∀ b ∈ inputs, a.experiment_progress.1 = b.experiment_progress.1 → a = b := by
    intro a ha b hb h
    obtain ⟨e, he, rfl⟩ := List.getElem_of_mem ha
    obtain ⟨e', he', rfl⟩ := List.getElem_of_mem hb
    have h1 := hnum _ _ (List.getElem?_eq_getElem he)
    have h2 := hnum _ _ (List.getElem?_eq_getElem he')
    have : e = e' := by omega
    subst this
    rfl
  have hP : PoolDraws inputs process num_pairs forked numpy own fun e i =>
      if h : ∃ s a, StartsAt inputs process num_pairs forked a s ∧ a.experiment_progress.1 = e then drawsAt numpy (h.choose + i * 8) (own e i)
      else drawsAt numpy 0 (own e i) := by
    intro a s hs i _
    have h : ∃ s b, StartsAt inputs process num_pairs forked b s ∧ b.experiment_progress.1 = a.experiment_progress.1 := ⟨s, a, hs, rfl⟩
    dsimp only
    rw [dif_pos h]
    obtain ⟨b, hb, he⟩ := h.choose_spec
    have hba := hsame b (hmem _ _ hb) a (hmem _ _ hs) he
    subst hba
    rw [huniq _ _ _ hb hs]
  refine ⟨_, hP, fun draws' hd' e he i hi => ?_⟩
  obtain ⟨s, hs⟩ := hall _ (List.getElem_mem he)
  have h1 := hP _ _ hs i hi
  have h2 := hd' _ _ hs i hi
  rw [hnum _ _ (List.getElem?_eq_getElem he)] at h1 h2
  exact h2.trans h1.symm

/-- With the ranges of the script (any plot), experiments that repeat the same ranges have no number of `numpy` in common, nor do two pairs of an
experiment.  (Missing: experiments with different ranges, see `C101_pieces_refuted`; the numbers of the module `random`.) -/
theorem C101_repetitions_partial (plot : String) (r : OffsetRanges) (hr : (plot, r) ∈ rangeTable) (n : ℕ) (hn : 0 < n) (inputs : List ExperimentInput)
    (hi : experimentInputs r n = .ok inputs) (process : ℕ → ℕ) (num_pairs forked : ℕ) (numpy : ℕ → ℝ) (hnumpy : Function.Injective numpy)
    (own : ℕ → ℕ → Bool × ℝ) (draws : ℕ → ℕ → SpoilDraws) (hd : PoolDraws inputs process num_pairs forked numpy own draws)
    (g e e' i i' : ℕ) (he : g * n ≤ e ∧ e < (g + 1) * n) (he' : g * n ≤ e' ∧ e' < (g + 1) * n) (hl : (g + 1) * n ≤ inputs.length)
    (hp : i < num_pairs) (hp' : i' < num_pairs) (hne : (e, i) ≠ (e', i')) : Fresh (draws e i) (draws e' i') := by
  obtain ⟨hnum, hlen⟩ := inputs_numbered hn hi
  have hc : n ≤ chunkSize inputs.length (numProcesses inputs.length) := by
    have h64 : 64 * n ≤ inputs.length := by
      rw [hlen]
      refine Nat.mul_le_mul_right n ?_
      simp only [rangeTable, List.mem_cons, List.not_mem_nil, or_false, Prod.mk.injEq] at hr
      rcases hr with ⟨-, rfl⟩ | ⟨-, rfl⟩ | ⟨-, rfl⟩ | ⟨-, rfl⟩ <;> simp [adjacent_length]
    have hw : numProcesses inputs.length = 8 := by
      unfold numProcesses
      omega
    rw [hw]
    unfold chunkSize
    refine le_trans ?_ (Nat.le_add_right _ _)
    rw [Nat.le_div_iff_mul_le (by norm_num)]
    omega
  have hd1 : ∀ e, e < inputs.length → ∀ i < num_pairs, ∃ q, draws e i = drawsAt numpy (forked +
      (q * chunkSize inputs.length (numProcesses inputs.length) + e % chunkSize inputs.length (numProcesses inputs.length)) * (num_pairs * 8) + i * 8)
      (own e i) := by
    intro e he i hi
    have ha := List.getElem?_eq_getElem he
    have := hd _ _ (startsAt_get he ha rfl) i hi
    rw [hnum _ _ ha] at this
    exact ⟨_, this⟩
  obtain ⟨q, h1⟩ := hd1 e (by omega) i hp
  obtain ⟨q', h2⟩ := hd1 e' (by omega) i' hp'
  rw [h1, h2]
  generalize chunkSize inputs.length (numProcesses inputs.length) = c at hc
  refine fresh_drawsAt hnumpy ?_ _ _
  have hgn : (g + 1) * n = g * n + n := by ring
  rw [hgn] at he he'
  have key : q * c + e % c ≠ q' * c + e' % c ∨ i ≠ i' := by
    by_contra hcon
    push Not at hcon
    obtain ⟨h3, h4⟩ := hcon
    refine hne (Prod.ext ?_ h4)
    have h5 : e % c = e' % c := by
      have := congrArg (· % c) h3
      simpa using this
    show e = e'
    have hcpos : 0 < c := by omega
    have a1 := Nat.div_add_mod e c
    have a2 := Nat.div_add_mod e' c
    by_contra hee
    rcases Nat.lt_trichotomy (e / c) (e' / c) with h | h | h
    · have := Nat.mul_le_mul_left c (Nat.succ_le_of_lt h)
      rw [Nat.mul_succ] at this
      omega
    · rw [h] at a1
      omega
    · have := Nat.mul_le_mul_left c (Nat.succ_le_of_lt h)
      rw [Nat.mul_succ] at this
      omega
  generalize q * c + e % c = x at key
  generalize q' * c + e' % c = y at key
  rcases Nat.lt_trichotomy x y with h | h | h
  · have := Nat.mul_le_mul_right (num_pairs * 8) (Nat.succ_le_of_lt h)
    rw [Nat.succ_mul] at this
    omega
  · subst h
    omega
  · have := Nat.mul_le_mul_right (num_pairs * 8) (Nat.succ_le_of_lt h)
    rw [Nat.succ_mul] at this
    omega

/-- The two iterations of the first ranges, with the default number of iterations. -/
example (r : OffsetRanges) (hr : ("angle_translation_complete", r) ∈ rangeTable) (own : ℕ → ℕ → Bool × ℝ) :
    ∃ inputs draws, experimentInputs r 2 = .ok inputs ∧ PoolDraws inputs (fun k => k % 8) 1 0 (fun j => 1 / ((j : ℝ) + 2)) own draws ∧
      Fresh (draws 0 0) (draws 1 0) := by
  obtain ⟨inputs, hi, hlen, -⟩ := C79_inputs r 2 (by norm_num)
  obtain ⟨draws, hd, -⟩ := C101_draws r 2 (by norm_num) inputs hi (fun k => k % 8) 1 0 (fun j => 1 / ((j : ℝ) + 2)) own
  refine ⟨inputs, draws, hi, hd, ?_⟩
  refine C101_repetitions_partial _ r hr 2 (by norm_num) inputs hi _ 1 0 _ (fun a b h => ?_) own draws hd 0 0 1 0 0 (by norm_num) (by norm_num) ?_
    (by norm_num) (by norm_num) (by simp)
  · have : (a : ℝ) + 2 = b + 2 := by simpa using h
    exact_mod_cast add_right_cancel this
  · rw [hlen]
    simp only [rangeTable, List.mem_cons, List.not_mem_nil, or_false, Prod.mk.injEq] at hr
    rcases hr with ⟨-, rfl⟩ | ⟨-, rfl⟩ | ⟨-, rfl⟩ | ⟨-, rfl⟩ <;> simp [adjacent_length]

/-- With one process (a single experiment) there is nothing to share. -/
example : numProcesses 1 = 1 ∧ chunkSize 1 1 = 1 := ⟨rfl, rfl⟩

/-- The default: 240 experiments, eight processes, 30 pieces of eight. -/
example : numProcesses 240 = 8 ∧ chunkSize 240 8 = 8 := ⟨rfl, rfl⟩

theorem earlier_zero {process : ℕ → ℕ} {m : ℕ} (h : ∀ j k, j < m → k < m → process j = process k → j = k) {k : ℕ} (hk : k < m) :
    earlier (fun j => process j == process k) k = 0 := by
  unfold earlier
  rw [List.length_eq_zero_iff, List.filter_eq_nil_iff]
  intro j hj hjk
  have hj := List.mem_range.mp hj
  have := h j k (by omega) hk (by simpa using hjk)
  omega

/-- If the first `m` pieces are given to different processes, which is so as long as no experiment is finished before all processes are busy, then all
experiments of these pieces have the numbers of `numpy` of the first piece. -/
theorem C101_pieces_refuted (r : OffsetRanges) (n : ℕ) (hn : 0 < n) (inputs : List ExperimentInput) (hi : experimentInputs r n = .ok inputs)
    (process : ℕ → ℕ) (m : ℕ) (hm : ∀ j k, j < m → k < m → process j = process k → j = k)
    (num_pairs forked : ℕ) (numpy : ℕ → ℝ) (own : ℕ → ℕ → Bool × ℝ) (draws : ℕ → ℕ → SpoilDraws)
    (hd : PoolDraws inputs process num_pairs forked numpy own draws) (e i : ℕ) (he : e < inputs.length)
    (hem : e < m * chunkSize inputs.length (numProcesses inputs.length)) (hp : i < num_pairs) :
    SameNumpy (draws e i) (draws (e % chunkSize inputs.length (numProcesses inputs.length)) i) := by
  obtain ⟨hnum, -⟩ := inputs_numbered hn hi
  have hcpos := chunkSize_pos (w := numProcesses inputs.length) (Nat.zero_lt_of_lt he)
  have hd1 : ∀ e, e < inputs.length → e < m * chunkSize inputs.length (numProcesses inputs.length) → draws e i = drawsAt numpy (forked +
      (0 * chunkSize inputs.length (numProcesses inputs.length) + e % chunkSize inputs.length (numProcesses inputs.length)) * (num_pairs * 8) + i * 8)
      (own e i) := by
    intro e he hem
    have ha := List.getElem?_eq_getElem he
    have hz := earlier_zero hm (k := e / chunkSize inputs.length (numProcesses inputs.length)) ((Nat.div_lt_iff_lt_mul hcpos).mpr hem)
    have := hd _ _ (startsAt_get he ha rfl) i hp
    rw [hnum _ _ ha, hz] at this
    exact this
  have hle := Nat.mod_le e (chunkSize inputs.length (numProcesses inputs.length))
  rw [hd1 e he hem, hd1 _ (by omega) (by omega), Nat.mod_mod]
  exact same_drawsAt _ _ _ _

/-- What this means for the initial guesses: the translations are moved in the same direction, and by the same fraction of the range. -/
theorem C101_direction_refuted {t t' : ℝ} {dq dq' : DQuat} {ar ar' tr tr' ti ti' : ℝ × ℝ} {d d' : SpoilDraws} (h : SameNumpy d d') {s s' : Spoiled}
    (hs : spoilInitialGuess t dq ar tr ti d = .ok s) (hs' : spoilInitialGuess t' dq' ar' tr' ti' d' = .ok s') :
    ∃ (u : Vec3) (x : ℝ), u.norm = 1 ∧ s.translation_offset = (tr.1 + (tr.2 - tr.1) * x) • u ∧ s'.translation_offset = (tr'.1 + (tr'.2 - tr'.1) * x) • u ∧
      ∃ y : ℝ, |s.time_offset_offset| = |ti.1 + (ti.2 - ti.1) * y| ∧ |s'.time_offset_offset| = |ti'.1 + (ti'.2 - ti'.1) * y| := by
  obtain ⟨h1, h2, h3, -⟩ := h
  have key : ∀ {t : ℝ} {dq : DQuat} {ar tr ti : ℝ × ℝ} {d : SpoilDraws} {s : Spoiled}, spoilInitialGuess t dq ar tr ti d = .ok s →
      ∃ u, randomUnit d.direction = .ok u ∧ s.translation_offset = (tr.1 + (tr.2 - tr.1) * d.length) • u ∧
        |s.time_offset_offset| = |ti.1 + (ti.2 - ti.1) * d.time| := by
    intro t dq ar tr ti d s hs
    unfold spoilInitialGuess at hs
    obtain ⟨u, hu, hs⟩ := Py.bind_eq_ok.mp hs
    obtain ⟨q, -, hs⟩ := Py.bind_eq_ok.mp hs
    obtain ⟨⟨p, dq1⟩, -, hs⟩ := Py.bind_eq_ok.mp hs
    obtain ⟨a, -, hs⟩ := Py.bind_eq_ok.mp hs
    obtain ⟨-, -, hs⟩ := Py.bind_eq_ok.mp hs
    obtain ⟨-, -, hs⟩ := Py.bind_eq_ok.mp hs
    obtain ⟨-, -, hs⟩ := Py.bind_eq_ok.mp hs
    obtain ⟨-, -, hs⟩ := Py.bind_eq_ok.mp hs
    cases hs
    refine ⟨u, hu, rfl, ?_⟩
    dsimp only
    unfold uniform
    rw [abs_mul]
    split <;> simp
  obtain ⟨u, hu, e1, e2⟩ := key hs
  obtain ⟨u', hu', e1', e2'⟩ := key hs'
  rw [← h2, hu] at hu'
  cases hu'
  have hn : u.norm = 1 := by
    by_cases hz : d.direction = ⟨0, 0, 0⟩
    · rw [hz, randomUnit, if_pos (by simp [Vec3.norm, Vec3.dot])] at hu
      cases hu
    · obtain ⟨v, hv, hv'⟩ := randomUnit_ok hz
      rw [hu] at hv'
      cases hv'
      exact hv
  exact ⟨u, d.length, hn, e1, by rw [h3]; exact e1', d.time, e2, by rw [h1]; exact e2'⟩

/-- The script as it is, with the default number of iterations: if the first eight pieces are given to different processes, the first 64 experiments have only
eight different sets of numbers; for instance experiments 0, 8, …, 56 have the same. -/
example (inputs : List ExperimentInput) (r : OffsetRanges) (hr : ("angle_translation_complete", r) ∈ rangeTable) (hi : experimentInputs r 2 = .ok inputs)
    (numpy : ℕ → ℝ) (own : ℕ → ℕ → Bool × ℝ) (draws : ℕ → ℕ → SpoilDraws) (hd : PoolDraws inputs (fun k => k % 8) 1 0 numpy own draws) :
    inputs.length = 240 ∧ ∀ e < 64, SameNumpy (draws e 0) (draws (e % 8) 0) := by
  have hlen := (inputs_numbered (by norm_num) hi).2
  have h240 : inputs.length = 240 := by
    rw [hlen]
    simp only [rangeTable, List.mem_cons, List.not_mem_nil, or_false, Prod.mk.injEq] at hr
    rcases hr with ⟨h, -⟩ | ⟨h, -⟩ | ⟨h, -⟩ | ⟨-, rfl⟩
    · exact absurd h (by decide)
    · exact absurd h (by decide)
    · exact absurd h (by decide)
    · simp [adjacent_length]
  refine ⟨h240, fun e he => ?_⟩
  have hc : chunkSize inputs.length (numProcesses inputs.length) = 8 := by
    rw [h240]
    rfl
  have := C101_pieces_refuted r 2 (by norm_num) inputs hi (fun k => k % 8) 8 (fun j k hj hk h => by omega) 1 0 numpy own draws hd e 0 (by omega) (by omega) (by norm_num)
  rwa [hc] at this

/-- Different experiments or pairs have different files, and the file of the result is not the one of the initial guess, whatever the texts of the offsets. -/
theorem C101_files (directory algorithm_name : List Char) (num_iterations : ℕ) (input input' : ExperimentInput) (pair pair' : ℕ)
    (dt ds da dt' ds' da' : List Char) :
    (∀ ending ending', experimentFile directory algorithm_name num_iterations input pair dt ds da ending =
      experimentFile directory algorithm_name num_iterations input' pair' dt' ds' da' ending' →
      input.experiment_progress.1 = input'.experiment_progress.1 ∧ pair = pair') ∧
    experimentFile directory algorithm_name num_iterations input pair dt ds da "init_guess.json".toList ≠
      experimentFile directory algorithm_name num_iterations input' pair' dt' ds' da' "optimized.json".toList := by
  constructor
  · intro ending ending' h
    unfold experimentFile at h
    simp only [List.append_assoc, List.append_cancel_left_eq] at h
    obtain ⟨h1, h⟩ := natText_append '_' '_' (by decide) (by decide) h
    obtain ⟨-, h⟩ := natText_append '_' '_' (by decide) (by decide) (List.append_cancel_left (as := "it_".toList) (List.cons.inj h).2)
    obtain ⟨h2, -⟩ := natText_append '_' '_' (by decide) (by decide) (List.append_cancel_left (as := "pose_pair_".toList) (List.cons.inj h).2)
    exact ⟨h1, h2⟩
  · intro h
    have e := congrArg (fun l => (l.reverse.drop 5).head?) h
    unfold experimentFile at e
    simp at e

/-- The number after `it_` is not the iteration: with several iterations, the files of the first one have the name of the last one. -/
theorem C101_label_refuted (r : OffsetRanges) (n : ℕ) (hn : 1 < n) (inputs : List ExperimentInput) (hi : experimentInputs r n = .ok inputs)
    (hne : inputs ≠ []) (directory algorithm_name : List Char) (pair : ℕ) (dt ds da ending : List Char) :
    ∃ input ∈ inputs, input.iteration = 0 ∧ ∃ rest, experimentFile directory algorithm_name n input pair dt ds da ending =
      directory ++ "/optimization/".toList ++ algorithm_name ++ "_run_0_it_".toList ++ natText (n - 1) ++ '_' :: rest := by
  obtain ⟨hnum, hlen⟩ := inputs_numbered (by omega) hi
  rw [experimentInputs_ok r n (by omega)] at hi
  cases hi
  have hpos : 0 < (rangeCombinations r.times r.angles r.translations n).length := by
    rw [List.length_pos_iff]
    intro h
    rw [h] at hne
    exact hne rfl
  have hl := rangeCombinations_length r.times r.angles r.translations n
  have ht : 0 < r.times.length := Nat.pos_of_ne_zero fun h => by rw [h, Nat.zero_mul] at hl; omega
  have ha : 0 < r.angles.length := Nat.pos_of_ne_zero fun h => by rw [h, Nat.zero_mul, Nat.mul_zero] at hl; omega
  have hx : 0 < r.translations.length := Nat.pos_of_ne_zero fun h => by rw [h, Nat.zero_mul, Nat.mul_zero, Nat.mul_zero] at hl; omega
  have hg := rangeCombinations_get r.times r.angles r.translations n 0 0 0 0 ha hx (by omega)
  rw [List.getElem?_eq_getElem ht, List.getElem?_eq_getElem ha, List.getElem?_eq_getElem hx] at hg
  simp only [Nat.zero_mul, Nat.add_zero, Option.bind_some] at hg
  have h0 := numbered_get (mkInput ((r.times.length * (r.angles.length * (r.translations.length * n)) : ℕ) : ℤ))
    (rangeCombinations r.times r.angles r.translations n) 0 0
  rw [hg] at h0
  refine ⟨_, List.mem_of_getElem? h0, rfl, ?_⟩
  unfold experimentFile
  refine ⟨"pose_pair_".toList ++ natText pair ++ "_dt_".toList ++ dt ++ "_ds_".toList ++ ds ++ "_da_".toList ++ da ++ '_' :: ending, ?_⟩
  simp [mkInput, natText]

example : experimentFile "r".toList "a".toList 3 ⟨(0, 0), (0, 0), (0, 0), 0, (5, 6)⟩ 1 "0.0".toList "0.1".toList "0.2".toList "init_guess.json".toList =
    "r/optimization/a_run_5_it_2_pose_pair_1_dt_0.0_ds_0.1_da_0.2_init_guess.json".toList := by
  simp [experimentFile, natText]

end HandEye
