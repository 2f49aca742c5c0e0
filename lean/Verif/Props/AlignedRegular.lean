import Verif.Props.Evaluate
import Verif.Props.Clock
import Verif.Spec.Recording

/-! # Aligned tables of regular recordings -/

namespace HandEye

theorem recording_t (t d : ℝ) (N : ℕ) (P : ℕ → Pose) :
    (Spec.recording t d N P).map StampedPose.t = Spec.regular t d N := by
  simp [Spec.recording, Spec.regular, Function.comp_def]

theorem recording_q (t d : ℝ) (N : ℕ) (P : ℕ → Pose) :
    ((Spec.recording t d N P).map fun p => p.pose.q) = (List.range (N + 1)).map fun i => (P i).q := by
  simp [Spec.recording, Function.comp_def]

theorem recording_length (t d : ℝ) (N : ℕ) (P : ℕ → Pose) : (Spec.recording t d N P).length = N + 1 := by
  simp [Spec.recording]

theorem mem_recording {t d : ℝ} {N : ℕ} {P : ℕ → Pose} {p : StampedPose} :
    p ∈ Spec.recording t d N P ↔ ∃ i ≤ N, p = ⟨t + i * d, P i⟩ := by
  simp only [Spec.recording, List.mem_map, List.mem_range]
  constructor
  · rintro ⟨i, hi, rfl⟩; exact ⟨i, by omega, rfl⟩
  · rintro ⟨i, hi, rfl⟩; exact ⟨i, by omega, rfl⟩

theorem mem_regular {t d : ℝ} {N : ℕ} {s : ℝ} : s ∈ Spec.regular t d N ↔ ∃ i ≤ N, s = t + i * d := by
  simp only [Spec.regular, List.mem_map, List.mem_range]
  constructor
  · rintro ⟨i, hi, rfl⟩; exact ⟨i, by omega, rfl⟩
  · rintro ⟨i, hi, rfl⟩; exact ⟨i, by omega, rfl⟩

theorem regular_shift (t d c : ℝ) (N : ℕ) : (Spec.regular t d N).map (· + c) = Spec.regular (t + c) d N := by
  unfold Spec.regular
  rw [List.map_map]
  refine List.map_congr_left fun i _ => ?_
  simp only [Function.comp_apply]
  ring

theorem steps_regular (t d : ℝ) (N : ℕ) : ∀ x ∈ Spec.steps (Spec.regular t d N), x = d := by
  rw [← steps_eq]
  intro x hx
  unfold npDiff at hx
  obtain ⟨k, hk, rfl⟩ := List.mem_iff_getElem.mp hx
  simp [Spec.regular]
  ring

theorem median_constant {l : List ℝ} {m d : ℝ} (h : ∀ x ∈ l, x = d) (hm : Spec.IsMedian l m) : m = d := by
  obtain ⟨s, a, b, hp, -, ha, hb, rfl⟩ := hm
  rw [h a (hp.mem_iff.mp (List.mem_of_getElem? ha)), h b (hp.mem_iff.mp (List.mem_of_getElem? hb))]
  ring

/-- The aligned tables of two regular recordings whose clocks differ by a multiple of the longer period hold recorded
poses only. -/
theorem aligned_regular {dt ta tb : ℝ} (hdt : 0 < dt) {n rA rB : ℕ} (hn : 0 < n) (hrA : 1 ≤ rA) (hrB : 1 ≤ rB)
    (hr : rA = 1 ∨ rB = 1) {m : ℤ} {PA PB : ℕ → Pose} (hA : ∀ i, (PA i).q.norm = 1) (hB : ∀ i, (PB i).q.norm = 1) :
    ∃ idx : List ℤ, computeAlignedPoses (Spec.recording ta (dt / rA) (rA * n) PA) (Spec.recording tb (dt / rB) (rB * n) PB)
        (dt * m + tb - ta) = .ok (idx.map fun (i : ℤ) => ⟨tb + (i + m) * dt, PA (rA * i.toNat)⟩,
          idx.map fun (i : ℤ) => ⟨tb + (i + m) * dt, PB (rB * (i + m).toNat)⟩) ∧
      (∀ i ∈ idx, (0 ≤ i ∧ i ≤ n) ∧ 0 ≤ i + m ∧ i + m ≤ n) ∧
      (∀ i : ℤ, 0 ≤ i → i < n → 0 ≤ i + m → i + m < n → i ∈ idx) ∧ idx.Pairwise (· < ·) := by
  have ra : (1 : ℝ) ≤ rA := by exact_mod_cast hrA
  have rb : (1 : ℝ) ≤ rB := by exact_mod_cast hrB
  have ra0 : (0 : ℝ) < rA := by linarith
  have rb0 : (0 : ℝ) < rB := by linarith
  have hnA : 1 ≤ rA * n := Nat.mul_pos hrA hn
  have hnB : 1 ≤ rB * n := Nat.mul_pos hrB hn
  set c := dt * m + tb - ta with hc
  set A := Spec.recording ta (dt / rA) (rA * n) PA with hAd
  set B := Spec.recording tb (dt / rB) (rB * n) PB with hBd
  have tA : A.map StampedPose.t = Spec.regular ta (dt / rA) (rA * n) := recording_t _ _ _ _
  have tB : B.map StampedPose.t = Spec.regular tb (dt / rB) (rB * n) := recording_t _ _ _ _
  have tA' : (A.map StampedPose.t).map (· + c) = Spec.regular (tb + m * dt) (dt / rA) (rA * n) := by
    rw [tA, regular_shift]
    congr 1
    rw [hc]; ring
  have sA : (A.map StampedPose.t).Pairwise (· < ·) := tA ▸ regular_sorted _ (div_pos hdt ra0) _
  have sA' : ((A.map StampedPose.t).map (· + c)).Pairwise (· < ·) := tA' ▸ regular_sorted _ (div_pos hdt ra0) _
  have sB : (B.map StampedPose.t).Pairwise (· < ·) := tB ▸ regular_sorted _ (div_pos hdt rb0) _
  have uA : ∀ p ∈ A, p.pose.q.norm = 1 := by
    intro p hp
    obtain ⟨i, -, rfl⟩ := mem_recording.mp hp
    exact hA i
  have uB : ∀ p ∈ B, p.pose.q.norm = 1 := by
    intro p hp
    obtain ⟨i, -, rfl⟩ := mem_recording.mp hp
    exact hB i
  have lA : A.length = rA * n + 1 := recording_length _ _ _ _
  have lB : B.length = rB * n + 1 := recording_length _ _ _ _
  obtain ⟨RA, RB, low, high, mlow, mhigh, h1, h2, h3, h4, h5, h6, h7, h8, h9, h10⟩ :=
    aligned_outcome (c := c) sA sB (by omega) (by omega) uA uB (by rw [tA']; exact regular_head _ _ _)
      (by rw [tA']; exact regular_last _ _ _) (by rw [tB]; exact regular_head _ _ _) (by rw [tB]; exact regular_last _ _ _)
  rw [tA', tB] at h2
  have endA : tb + m * dt + ((rA * n : ℕ) : ℝ) * (dt / rA) = tb + m * dt + n * dt := by push_cast; field_simp
  have endB : tb + ((rB * n : ℕ) : ℝ) * (dt / rB) = tb + n * dt := by push_cast; field_simp
  rw [endA, endB] at h10
  -- Recorded times.
  have inA : ∀ i : ℕ, i ≤ n → rA * i ≤ rA * n ∧ tb + ((i : ℤ) + m : ℝ) * dt = tb + m * dt + ((rA * i : ℕ) : ℝ) * (dt / rA) := by
    intro i hi
    refine ⟨Nat.mul_le_mul_left _ hi, ?_⟩
    push_cast
    field_simp
    ring
  have inB : ∀ j : ℕ, j ≤ n → rB * j ≤ rB * n ∧ tb + (j : ℝ) * dt = tb + ((rB * j : ℕ) : ℝ) * (dt / rB) := by
    intro i hi
    refine ⟨Nat.mul_le_mul_left _ hi, ?_⟩
    push_cast
    field_simp
  have cancel : ∀ x y : ℝ, x * dt ≤ y * dt → x ≤ y := fun x y h => le_of_mul_le_mul_right h hdt
  have hT : ∀ t ∈ RA.map StampedPose.t, ∃ i : ℤ, ((0 ≤ i ∧ i ≤ n) ∧ 0 ≤ i + m ∧ i + m ≤ n) ∧ t = tb + (i + m) * dt := by
    intro t ht
    obtain ⟨g1, g2, g3, g4⟩ := h10 t ht
    rw [h6] at ht
    replace ht := (List.mem_filter.mp ht).1
    rcases h2 with ⟨rfl, rfl⟩ | ⟨rfl, rfl, hlt⟩
    · have e1 := median_constant (steps_regular _ _ _) h3
      have e2 := median_constant (steps_regular _ _ _) h4
      have hr1 : rA = 1 := by
        rcases hr with h | h
        · exact h
        · rw [e1, e2, h] at h5
          push_cast at h5
          rw [div_one, le_div_iff₀ ra0] at h5
          have : (rA : ℝ) ≤ 1 := by
            by_contra hcon
            nlinarith
          have : rA ≤ 1 := by exact_mod_cast this
          omega
      obtain ⟨k, hk, rfl⟩ := mem_regular.mp ht
      subst hr1
      rw [one_mul] at hk
      have ek : tb + (m : ℝ) * dt + (k : ℝ) * (dt / (1 : ℕ)) = tb + ((k : ℤ) + m : ℝ) * dt := by push_cast; ring
      rw [ek] at g3 g4 ⊢
      refine ⟨k, ⟨⟨by omega, by omega⟩, ?_, ?_⟩, rfl⟩
      · have := cancel 0 ((k : ℤ) + m) (by linarith)
        exact_mod_cast this
      · have := cancel ((k : ℤ) + m) n (by linarith)
        exact_mod_cast this
    · have e1 := median_constant (steps_regular _ _ _) h3
      have e2 := median_constant (steps_regular _ _ _) h4
      have hr1 : rB = 1 := by
        rcases hr with h | h
        · rw [e1, e2, h] at h5
          push_cast at h5
          rw [div_one, le_div_iff₀ rb0] at h5
          have : (rB : ℝ) ≤ 1 := by
            by_contra hcon
            nlinarith
          have : rB ≤ 1 := by exact_mod_cast this
          omega
        · exact h
      obtain ⟨k, hk, rfl⟩ := mem_regular.mp ht
      subst hr1
      rw [one_mul] at hk
      have ek : tb + (k : ℝ) * (dt / (1 : ℕ)) = tb + (((k : ℤ) - m : ℤ) + m : ℝ) * dt := by push_cast; ring
      rw [ek] at g1 g2 ⊢
      refine ⟨k - m, ⟨⟨?_, ?_⟩, by omega, by omega⟩, rfl⟩
      · have := cancel 0 (((k : ℤ) - m : ℤ) : ℝ) (by linarith)
        exact_mod_cast this
      · have := cancel (((k : ℤ) - m : ℤ) : ℝ) n (by linarith)
        exact_mod_cast this
  have hT' : ∀ i : ℤ, 0 ≤ i → i < n → 0 ≤ i + m → i + m < n → tb + ((i : ℝ) + m) * dt ∈ RA.map StampedPose.t := by
    intro i i0 i1 j0 j1
    obtain ⟨a, rfl⟩ := Int.eq_ofNat_of_zero_le i0
    obtain ⟨b, hb⟩ := Int.eq_ofNat_of_zero_le j0
    obtain ⟨f1, f2⟩ := inA a (by omega)
    obtain ⟨f3, f4⟩ := inB b (by omega)
    have ej : ((a : ℤ) : ℝ) + m = b := by exact_mod_cast hb
    have eb : tb + (((a : ℤ) : ℝ) + m) * dt = tb + ((rB * b : ℕ) : ℝ) * (dt / rB) := by rw [ej, f4]
    have memA : tb + (((a : ℤ) : ℝ) + m) * dt ∈ Spec.regular (tb + m * dt) (dt / rA) (rA * n) :=
      mem_regular.mpr ⟨rA * a, f1, f2⟩
    have memB : tb + (((a : ℤ) : ℝ) + m) * dt ∈ Spec.regular tb (dt / rB) (rB * n) := mem_regular.mpr ⟨rB * b, f3, eb⟩
    have ltA : rA * a < rA * n := Nat.mul_lt_mul_of_pos_left (by omega) hrA
    have ltB : rB * b < rB * n := Nat.mul_lt_mul_of_pos_left (by omega) hrB
    have nearA : Spec.Near (Spec.regular (tb + m * dt) (dt / rA) (rA * n)) (tb + (((a : ℤ) : ℝ) + m) * dt) :=
      Or.inl ⟨rA * a, by rw [List.getElem?_eq_getElem (by rw [regular_length]; omega), regular_get, f2],
        by rw [regular_length]; omega⟩
    have nearB : Spec.Near (Spec.regular tb (dt / rB) (rB * n)) (tb + (((a : ℤ) : ℝ) + m) * dt) :=
      Or.inl ⟨rB * b, by rw [List.getElem?_eq_getElem (by rw [regular_length]; omega), regular_get, eb],
        by rw [regular_length]; omega⟩
    have hmax : max (tb + m * dt) tb ≤ tb + (((a : ℤ) : ℝ) + m) * dt := by
      have p1 : (0 : ℝ) ≤ ((a : ℤ) : ℝ) * dt := mul_nonneg (by exact_mod_cast i0) hdt.le
      have p2 : (0 : ℝ) ≤ (((a : ℤ) : ℝ) + m) * dt := mul_nonneg (by rw [ej]; positivity) hdt.le
      refine max_le ?_ ?_ <;> linarith
    rw [h6]
    rcases h2 with ⟨rfl, rfl⟩ | ⟨rfl, rfl, -⟩
    · exact List.mem_filter.mpr ⟨memA, by simp only [decide_eq_true_eq]; exact ⟨hmax, nearB⟩⟩
    · exact List.mem_filter.mpr ⟨memB, by simp only [decide_eq_true_eq]; exact ⟨hmax, nearA⟩⟩
  have sT : (RA.map StampedPose.t).Pairwise (· < ·) := by
    rw [h6]
    rcases h2 with ⟨rfl, -⟩ | ⟨rfl, -⟩
    · exact (tA' ▸ sA').filter _
    · exact (tB ▸ sB).filter _
  -- The index of a time.
  set f : ℝ → ℤ := fun t => ⌊(t - tb) / dt⌋ - m with hf
  have ff : ∀ i : ℤ, f (tb + ((i : ℝ) + m) * dt) = i := by
    intro i
    simp only [hf]
    have : (tb + ((i : ℝ) + m) * dt - tb) / dt = ((i + m : ℤ) : ℝ) := by push_cast; field_simp; ring
    rw [this, Int.floor_intCast]
    ring
  have hid : (RA.map StampedPose.t).map (fun t => tb + ((f t : ℤ) + m : ℝ) * dt) = RA.map StampedPose.t := by
    conv_rhs => rw [← List.map_id (RA.map StampedPose.t)]
    refine List.map_congr_left fun t ht => ?_
    obtain ⟨i, -, rfl⟩ := hT t ht
    rw [ff, id]
  have hmem : ∀ i ∈ (RA.map StampedPose.t).map f, (0 ≤ i ∧ i ≤ n) ∧ 0 ≤ i + m ∧ i + m ≤ n := by
    intro i hi
    obtain ⟨t, ht, rfl⟩ := List.mem_map.mp hi
    obtain ⟨i, hi', rfl⟩ := hT t ht
    rw [ff]
    exact hi'
  refine ⟨(RA.map StampedPose.t).map f, ?_, hmem, ?_, ?_⟩
  · have r1 : RA = ((RA.map StampedPose.t).map f).map fun (i : ℤ) => ⟨tb + (i + m) * dt, PA (rA * i.toNat)⟩ := by
      have := interpolate_recorded (poses := shiftTimes c A)
        (rows := ((RA.map StampedPose.t).map f).map fun (i : ℤ) => ⟨tb + (i + m) * dt, PA (rA * i.toNat)⟩)
        (by rw [shiftTimes_t]; exact sA') ?_ ?_
      · rw [List.map_map, List.map_map] at this
        have e : (List.map ((StampedPose.t ∘ fun (i : ℤ) => ⟨tb + (i + m) * dt, PA (rA * i.toNat)⟩) ∘ f)
            (RA.map StampedPose.t)) = RA.map StampedPose.t := hid
        rw [e, h8] at this
        exact Except.ok.inj this
      · intro r hr'
        obtain ⟨i, hi, rfl⟩ := List.mem_map.mp hr'
        obtain ⟨⟨q1, q2⟩, -⟩ := hmem i hi
        obtain ⟨a, rfl⟩ := Int.eq_ofNat_of_zero_le q1
        obtain ⟨w1, w2⟩ := inA a (by omega)
        refine List.mem_map.mpr ⟨⟨ta + ((rA * a : ℕ) : ℝ) * (dt / rA), PA (rA * a)⟩, mem_recording.mpr ⟨_, w1, rfl⟩, ?_⟩
        simp only [Int.toNat_natCast]
        congr 1
        rw [w2, hc]
        ring
      · intro e
        have := congrArg List.length e
        simp [shiftTimes, lA] at this
    have r2 : RB = ((RA.map StampedPose.t).map f).map fun (i : ℤ) => ⟨tb + (i + m) * dt, PB (rB * (i + m).toNat)⟩ := by
      have := interpolate_recorded (poses := B)
        (rows := ((RA.map StampedPose.t).map f).map fun (i : ℤ) => ⟨tb + (i + m) * dt, PB (rB * (i + m).toNat)⟩) sB ?_ ?_
      · rw [List.map_map, List.map_map] at this
        have e : (List.map ((StampedPose.t ∘ fun (i : ℤ) => ⟨tb + (i + m) * dt, PB (rB * (i + m).toNat)⟩) ∘ f)
            (RA.map StampedPose.t)) = RA.map StampedPose.t := hid
        rw [e, h9] at this
        exact Except.ok.inj this
      · intro r hr'
        obtain ⟨i, hi, rfl⟩ := List.mem_map.mp hr'
        obtain ⟨-, q1, q2⟩ := hmem i hi
        obtain ⟨b, hb⟩ := Int.eq_ofNat_of_zero_le q1
        obtain ⟨w1, w2⟩ := inB b (by omega)
        have eb : (i : ℝ) + m = b := by exact_mod_cast hb
        refine mem_recording.mpr ⟨rB * b, w1, ?_⟩
        rw [eb, w2, hb, Int.toNat_natCast]
      · intro e
        rw [e] at lB
        simp at lB
    rw [h1, ← r1, ← r2]
  · intro i i0 i1 j0 j1
    exact List.mem_map.mpr ⟨_, hT' i i0 i1 j0 j1, ff i⟩
  · rw [List.pairwise_map]
    refine (List.Pairwise.and_mem.mp sT).imp ?_
    rintro s t ⟨hs, ht, hst⟩
    obtain ⟨i, -, rfl⟩ := hT s hs
    obtain ⟨j, -, rfl⟩ := hT t ht
    rw [ff, ff]
    have : ((i : ℝ) + m) * dt < ((j : ℝ) + m) * dt := by linarith
    have := lt_of_mul_lt_mul_right this hdt.le
    have : (i : ℝ) < j := by linarith
    exact_mod_cast this

end HandEye
