import Verif.Spec.Pool
import Verif.Lemmas.Csv
import Verif.Lemmas.SpoilExperiments

/-! # Lemmas on the pieces and processes of the experiments -/

namespace HandEye

open Spec

theorem mem_workerStarts {α : Type} {P f s : ℕ} {a : α} {l : List α} :
    (a, s) ∈ workerStarts P f l ↔ ∃ i, l[i]? = some a ∧ s = f + i * (P * 8) := by
  induction l generalizing f with
  | nil => simp [workerStarts]
  | cons b l ih =>
    rw [workerStarts, List.mem_cons, ih, Prod.mk.injEq]
    constructor
    · rintro (⟨rfl, rfl⟩ | ⟨i, h, rfl⟩)
      · exact ⟨0, by simp, by simp⟩
      · exact ⟨i + 1, by simpa using h, by ring⟩
    · rintro ⟨i, h, rfl⟩
      cases i with
      | zero => exact .inl ⟨by simpa using h.symm, by simp⟩
      | succ i => exact .inr ⟨i, by simpa using h, by ring⟩

/-- How many of the first pieces the process is given. -/
def earlier (pred : ℕ → Bool) (k : ℕ) : ℕ := ((List.range k).filter pred).length

theorem earlier_succ (pred : ℕ → Bool) (k : ℕ) : earlier pred (k + 1) = earlier pred k + if pred k then 1 else 0 := by
  unfold earlier
  rw [List.range_succ, List.filter_append, List.length_append]
  congr 1
  by_cases h : pred k <;> simp [h]

/-- The inputs of the first pieces. -/
def firstInputs {α : Type} (c : ℕ) (l : List α) (pred : ℕ → Bool) (m : ℕ) : List α := ((List.range m).filter pred).flatMap (chunk c l)

theorem firstInputs_succ {α : Type} (c : ℕ) (l : List α) (pred : ℕ → Bool) (m : ℕ) :
    firstInputs c l pred (m + 1) = firstInputs c l pred m ++ if pred m then chunk c l m else [] := by
  unfold firstInputs
  rw [List.range_succ, List.filter_append, List.flatMap_append]
  congr 1
  by_cases h : pred m <;> simp [h]

theorem chunk_length {α : Type} (c : ℕ) (l : List α) (k : ℕ) : (chunk c l k).length = min c (l.length - k * c) := by
  unfold chunk
  simp

theorem chunk_get {α : Type} (c : ℕ) (l : List α) (k : ℕ) {r : ℕ} (hr : r < c) : (chunk c l k)[r]? = l[k * c + r]? := by
  unfold chunk
  rw [List.getElem?_take_of_lt hr, List.getElem?_drop]

theorem firstInputs_length {α : Type} (c : ℕ) (l : List α) (pred : ℕ → Bool) (m : ℕ) (h : m * c ≤ l.length) :
    (firstInputs c l pred m).length = earlier pred m * c := by
  induction m with
  | zero => simp [firstInputs, earlier]
  | succ m ih =>
    rw [Nat.succ_mul] at h
    rw [firstInputs_succ, earlier_succ, List.length_append, ih (by omega)]
    by_cases hp : pred m
    · rw [if_pos hp, if_pos hp, chunk_length, Nat.add_mul, one_mul]
      omega
    · rw [if_neg hp, if_neg hp]
      simp

theorem firstInputs_mem {α : Type} {c : ℕ} {l : List α} {pred : ℕ → Bool} {m i : ℕ} (h : i < (firstInputs c l pred m).length) :
    ∃ k, k < m ∧ pred k = true ∧ ∃ r, r < c ∧ k * c + r < l.length ∧ i = earlier pred k * c + r ∧
      (firstInputs c l pred m)[i]? = l[k * c + r]? := by
  induction m with
  | zero => simp [firstInputs] at h
  | succ m ih =>
    by_cases hi : i < (firstInputs c l pred m).length
    · obtain ⟨k, hk, hp, r, hr, hl, he, hg⟩ := ih hi
      refine ⟨k, by omega, hp, r, hr, hl, he, ?_⟩
      rw [firstInputs_succ, List.getElem?_append_left hi, hg]
    · rw [firstInputs_succ, List.length_append] at h
      by_cases hp : pred m
      · rw [if_pos hp, chunk_length] at h
        have hm : m * c < l.length := by omega
        have hlen := firstInputs_length c l pred m hm.le
        refine ⟨m, by omega, hp, i - earlier pred m * c, by omega, by omega, by omega, ?_⟩
        rw [firstInputs_succ, List.getElem?_append_right (by omega), if_pos hp, hlen, chunk_get _ _ _ (by omega)]
      · rw [if_neg hp] at h
        simp at h
        omega

theorem firstInputs_get {α : Type} {c : ℕ} {l : List α} {pred : ℕ → Bool} {m k r : ℕ} (hk : k < m) (hp : pred k = true) (hr : r < c)
    (hl : k * c + r < l.length) : (firstInputs c l pred m)[earlier pred k * c + r]? = l[k * c + r]? := by
  induction m with
  | zero => omega
  | succ m ih =>
    rw [firstInputs_succ]
    rcases Nat.lt_succ_iff_lt_or_eq.mp hk with h | rfl
    · have := ih h
      rw [List.getElem?_append_left, this]
      by_contra hc
      rw [List.getElem?_eq_none (by omega), List.getElem?_eq_getElem hl] at this
      cases this
    · have hlen := firstInputs_length c l pred k (by omega)
      rw [List.getElem?_append_right (by omega), if_pos hp, hlen, Nat.add_sub_cancel_left, chunk_get _ _ _ hr]

theorem chunkSize_pos {n w : ℕ} (hn : 0 < n) : 0 < chunkSize n w := by
  unfold chunkSize
  by_cases h : n % (w * 4) = 0
  · have hd := Nat.div_add_mod n (w * 4)
    rw [h] at hd
    rcases Nat.eq_zero_or_pos (n / (w * 4)) with h0 | h0
    · rw [h0] at hd
      simp at hd
      omega
    · exact Nat.add_pos_left h0 _
  · rw [if_neg h]
    exact Nat.add_pos_right _ one_pos

/-- Where an experiment starts: after the pieces that the process has been given before, and what is before it in its own piece. -/
theorem startsAt_iff {α : Type} {inputs : List α} {process : ℕ → ℕ} {P f s : ℕ} {a : α} :
    StartsAt inputs process P f a s ↔ ∃ k r, r < chunkSize inputs.length (numProcesses inputs.length) ∧
      inputs[k * chunkSize inputs.length (numProcesses inputs.length) + r]? = some a ∧
      s = f + (earlier (fun j => process j == process k) k * chunkSize inputs.length (numProcesses inputs.length) + r) * (P * 8) := by
  set c := chunkSize inputs.length (numProcesses inputs.length) with hc
  constructor
  · rintro ⟨p, h⟩
    obtain ⟨i, hi, rfl⟩ := mem_workerStarts.mp h
    have hlt : i < (firstInputs c inputs (fun k => process k == p) inputs.length).length := by
      by_contra hge
      have : (workerInputs c inputs fun k => process k == p)[i]? = none := List.getElem?_eq_none (by unfold workerInputs; unfold firstInputs at hge; omega)
      rw [← hc] at hi
      rw [this] at hi
      cases hi
    obtain ⟨k, -, hp, r, hr, -, he, hg⟩ := firstInputs_mem hlt
    have hpk : process k = p := by simpa using hp
    subst hpk
    exact ⟨k, r, hr, hg ▸ hi, by rw [he]⟩
  · rintro ⟨k, r, hr, hg, rfl⟩
    have hl : k * c + r < inputs.length := by
      by_contra hge
      rw [List.getElem?_eq_none (by omega)] at hg
      cases hg
    have hk : k < inputs.length := by
      have : k * 1 ≤ k * c := Nat.mul_le_mul_left k (by omega)
      omega
    refine ⟨process k, mem_workerStarts.mpr ⟨_, ?_, rfl⟩⟩
    have := firstInputs_get (pred := fun j => process j == process k) hk (by simp) hr hl
    rw [hg] at this
    exact this

/-- The inputs are numbered. -/
def Numbered (inputs : List ExperimentInput) : Prop := ∀ (e : ℕ) (a : ExperimentInput), inputs[e]? = some a → a.experiment_progress.1 = e

theorem inputs_numbered {r : OffsetRanges} {n : ℕ} (hn : 0 < n) {inputs : List ExperimentInput} (h : experimentInputs r n = .ok inputs) :
    Numbered inputs ∧ inputs.length = r.times.length * r.angles.length * r.translations.length * n := by
  rw [experimentInputs_ok r n hn] at h
  cases h
  constructor
  · intro e a ha
    rw [numbered_get] at ha
    cases hr : (rangeCombinations r.times r.angles r.translations n)[e]? with
    | none => rw [hr] at ha; cases ha
    | some x =>
      rw [hr] at ha
      cases ha
      simp [mkInput]
  · rw [numbered_length, rangeCombinations_length]
    ring

theorem uniform_half (u : ℝ) : (uniform (-1) 1 u + 1) / 2 = u := by
  unfold uniform
  ring

theorem numpyNumbers_drawsAt (numpy : ℕ → ℝ) (s : ℕ) (own : Bool × ℝ) :
    numpyNumbers (drawsAt numpy s own) = (List.range 8).map fun j => numpy (s + j) := by
  unfold numpyNumbers drawsAt
  dsimp only
  simp only [uniform_half]
  rfl

theorem fresh_drawsAt {numpy : ℕ → ℝ} (hinj : Function.Injective numpy) {s s' : ℕ} (h : s + 8 ≤ s' ∨ s' + 8 ≤ s) (own own' : Bool × ℝ) :
    Fresh (drawsAt numpy s own) (drawsAt numpy s' own') := by
  intro u hu hu'
  rw [numpyNumbers_drawsAt, List.mem_map] at hu hu'
  obtain ⟨j, hj, rfl⟩ := hu
  obtain ⟨j', hj', he⟩ := hu'
  have := hinj he
  rw [List.mem_range] at hj hj'
  omega

theorem same_drawsAt (numpy : ℕ → ℝ) (s : ℕ) (own own' : Bool × ℝ) : SameNumpy (drawsAt numpy s own) (drawsAt numpy s own') := ⟨rfl, rfl, rfl, rfl⟩

/-- Two decimal numbers that are followed by something else. -/
theorem natText_append {a b : ℕ} {s t : List Char} (x y : Char) (hx : x.isDigit = false) (hy : y.isDigit = false)
    (h : natText a ++ x :: s = natText b ++ y :: t) : a = b ∧ x :: s = y :: t := by
  have key : ∀ n (z : Char) (u : List Char), z.isDigit = false → (natText n ++ z :: u).takeWhile Char.isDigit = natText n := by
    intro n z u hz
    rw [List.takeWhile_append_of_pos (natText_digits n), List.takeWhile_cons_of_neg (by simp [hz])]
    simp
  have e := congrArg (List.takeWhile Char.isDigit) h
  rw [key _ _ _ hx, key _ _ _ hy] at e
  have hab : a = b := by rw [← natText_value a, ← natText_value b, e]
  subst hab
  exact ⟨rfl, List.append_cancel_left h⟩

end HandEye
