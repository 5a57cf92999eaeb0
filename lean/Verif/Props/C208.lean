import Verif.Model.UringFit
import Mathlib.Tactic.Linarith

/-!
# The points for the fit of the free power (C208, C211)
-/
namespace Verif.Uring

/-- Where the diffraction pattern of a ring may be. -/
def Spec.NearRing (r : ℚ) (ring : ℚ × ℚ) : Prop := |r - ring.1| ≤ ring.2 + 16

/-- The sample is the one next to `x`. -/
def Spec.Next (rho : List ℚ) (j : Nat) (x : ℚ) : Prop := ∃ r, rho[j]? = some r ∧ ∀ s ∈ rho, |r - x| ≤ |s - x|

theorem argNear_spec {rho : List ℚ} (h : rho ≠ []) (x : ℚ) : ∃ r, rho[argNear rho x]? = some r ∧ (∀ s ∈ rho, |r - x| ≤ |s - x|) ∧
    ∀ j s, j < argNear rho x → rho[j]? = some s → |r - x| < |s - x| := by
  obtain ⟨m, hm, hle⟩ : ∃ m ∈ rho, ∀ s ∈ rho, |m - x| ≤ |s - x| := by
    induction rho with
    | nil => exact absurd rfl h
    | cons a as ih =>
      by_cases ha : as = []
      · exact ⟨a, by simp, by simp [ha]⟩
      · obtain ⟨m, hm, hle⟩ := ih ha
        rcases le_total |a - x| |m - x| with h1 | h1
        · refine ⟨a, by simp, fun s hs => ?_⟩
          rcases List.mem_cons.mp hs with rfl | hs
          · exact le_rfl
          · exact h1.trans (hle s hs)
        · refine ⟨m, by simp [hm], fun s hs => ?_⟩
          rcases List.mem_cons.mp hs with rfl | hs
          · exact h1
          · exact hle s hs
  have hlt : argNear rho x < rho.length := by
    rw [argNear, List.findIdx_lt_length]
    exact ⟨m, hm, by simpa using hle⟩
  have hget : (rho.all fun s => decide (|rho[argNear rho x] - x| ≤ |s - x|)) = true := List.findIdx_getElem (w := hlt)
  refine ⟨rho[argNear rho x], by simp [hlt], ?_, ?_⟩
  · have h2 := hget
    rw [List.all_eq_true] at h2
    intro s hs
    simpa using h2 s hs
  · intro j s hj hs
    obtain ⟨hjl, hs'⟩ := List.getElem?_eq_some_iff.mp hs
    have h3 := List.not_of_lt_findIdx (by exact hj)
    rw [List.all_eq_true] at hget
    rw [← Bool.not_eq_true] at h3
    by_contra hc
    apply h3
    rw [List.all_eq_true]
    intro t ht
    have h4 : |rho[argNear rho x] - x| ≤ |t - x| := by simpa using hget t ht
    rw [hs']
    exact decide_eq_true ((not_lt.mp hc).trans h4)

theorem exclude_get (rho : List ℚ) (mask : List Bool) (ring : ℚ × ℚ) (j : Nat) : (exclude rho mask ring)[j]? =
    mask[j]?.map fun b => b && !(decide (rho.headD 0 ≤ ring.1 ∧ ring.1 ≤ rho.getLastD 0 ∧ argNear rho (ring.1 - ring.2 - 16) ≤ j ∧
      j ≤ argNear rho (ring.1 + ring.2 + 16))) := by
  unfold exclude
  split
  · rename_i h
    have : ¬ (rho.headD 0 ≤ ring.1 ∧ ring.1 ≤ rho.getLastD 0 ∧ argNear rho (ring.1 - ring.2 - 16) ≤ j ∧
      j ≤ argNear rho (ring.1 + ring.2 + 16)) := by
      rintro ⟨h1, h2, -⟩; rcases h with h | h <;> linarith
    rw [decide_eq_false this]; simp
  · rename_i h
    push Not at h
    rw [List.getElem?_mapIdx]
    congr 1
    funext b
    by_cases hc : argNear rho (ring.1 - ring.2 - 16) ≤ j ∧ j ≤ argNear rho (ring.1 + ring.2 + 16)
    · rw [if_pos ⟨hc.1, Nat.lt_succ_of_le hc.2⟩, decide_eq_true ⟨h.1, h.2, hc.1, hc.2⟩]; simp
    · rw [if_neg (by omega)]
      have : ¬ (rho.headD 0 ≤ ring.1 ∧ ring.1 ≤ rho.getLastD 0 ∧ argNear rho (ring.1 - ring.2 - 16) ≤ j ∧
        j ≤ argNear rho (ring.1 + ring.2 + 16)) := fun hh => hc hh.2.2
      rw [decide_eq_false this]; simp

theorem foldl_get (rho : List ℚ) (rings : List (ℚ × ℚ)) (mask : List Bool) (j : Nat) : (rings.foldl (exclude rho) mask)[j]? =
    mask[j]?.map fun b => b && rings.all fun ring => !(decide (rho.headD 0 ≤ ring.1 ∧ ring.1 ≤ rho.getLastD 0 ∧
      argNear rho (ring.1 - ring.2 - 16) ≤ j ∧ j ≤ argNear rho (ring.1 + ring.2 + 16))) := by
  induction rings generalizing mask with
  | nil => simp
  | cons r rs ih =>
    rw [List.foldl_cons, ih, exclude_get]
    simp only [Option.map_map, List.all_cons]
    congr 1
    funext b
    simp [Bool.and_assoc]

theorem foldl_len (rho : List ℚ) (rings : List (ℚ × ℚ)) (mask : List Bool) : (rings.foldl (exclude rho) mask).length = mask.length := by
  induction rings generalizing mask with
  | nil => rfl
  | cons r rs ih => rw [List.foldl_cons, ih, exclude]; split <;> simp

theorem fitMask_get (rho power : List ℚ) (rings : List (ℚ × ℚ)) (hl : power.length = rho.length) (j : Nat) (hj : j < rho.length) :
    (fitMask rho power rings)[j]? = some (decide (50 ≤ j ∧ j + 50 < rho.length ∧ power[j]'(hl ▸ hj) ≤ 3000 ∧ ∀ ring ∈ rings,
      rho.headD 0 ≤ ring.1 → ring.1 ≤ rho.getLastD 0 →
        ¬ (argNear rho (ring.1 - ring.2 - 16) ≤ j ∧ j ≤ argNear rho (ring.1 + ring.2 + 16)))) := by
  have hj' : j < power.length := hl ▸ hj
  have hall : (rings.all fun ring => !(decide (rho.headD 0 ≤ ring.1 ∧ ring.1 ≤ rho.getLastD 0 ∧
      argNear rho (ring.1 - ring.2 - 16) ≤ j ∧ j ≤ argNear rho (ring.1 + ring.2 + 16)))) = decide (∀ ring ∈ rings,
      rho.headD 0 ≤ ring.1 → ring.1 ≤ rho.getLastD 0 →
        ¬ (argNear rho (ring.1 - ring.2 - 16) ≤ j ∧ j ≤ argNear rho (ring.1 + ring.2 + 16))) := by
    rw [Bool.eq_iff_iff, List.all_eq_true, decide_eq_true_eq]
    refine forall_congr' fun ring => forall_congr' fun _ => ?_
    rw [Bool.not_eq_true', decide_eq_false_iff_not]
    tauto
  have hlen : (List.foldl (exclude rho) (List.map (fun _ => true) rho) rings).length = rho.length := by simp [foldl_len]
  simp only [fitMask, List.getElem?_zipWith, List.getElem?_mapIdx, foldl_get, List.length_mapIdx, hlen, List.getElem?_map,
    List.getElem?_eq_getElem hj, List.getElem?_eq_getElem hj', Option.map_some, Bool.true_and, hall]
  congr 1
  rw [Bool.eq_iff_iff]
  have h1 : j < 50 ↔ ¬ 50 ≤ j := by omega
  have h2 : rho.length - 50 ≤ j ↔ ¬ j + 50 < rho.length := by omega
  have h3 : 3000 < power[j] ↔ ¬ power[j] ≤ 3000 := not_le.symm
  by_cases h1' : 50 ≤ j <;> by_cases h2' : j + 50 < rho.length <;> by_cases h3' : power[j] ≤ 3000 <;>
    simp only [h1, h2, h3, h1', h2', h3', not_true, not_false_eq_true, if_true, if_false, true_and, false_and, decide_false, Bool.false_eq_true]

theorem near_iff {rho : List ℚ} (hs : rho.Pairwise (· < ·)) (x r : ℚ) (j : Nat) (hr : rho[j]? = some r) :
    (x ≤ r → argNear rho x ≤ j) ∧ (r ≤ x → j ≤ argNear rho x) ∧ (argNear rho x ≤ j → x ≤ r ∨ Spec.Next rho j x) ∧
    (j ≤ argNear rho x → r ≤ x ∨ Spec.Next rho j x) := by
  have hne : rho ≠ [] := by rintro rfl; simp at hr
  obtain ⟨m, hm, hle, hlt⟩ := argNear_spec hne x
  obtain ⟨hj, rfl⟩ := List.getElem?_eq_some_iff.mp hr
  obtain ⟨hi, rfl⟩ := List.getElem?_eq_some_iff.mp hm
  have mono : ∀ (a b : Nat) (ha : a < rho.length) (hb : b < rho.length), a < b → rho[a] < rho[b] := fun a b ha hb hab =>
    List.pairwise_iff_getElem.mp hs a b ha hb hab
  have hjm : rho[j] ∈ rho := List.getElem_mem hj
  refine ⟨fun h => ?_, fun h => ?_, fun h => ?_, fun h => ?_⟩
  · by_contra hc
    push Not at hc
    have h1 := mono _ _ hj hi hc
    have h2 := hlt j _ hc hr
    rw [abs_of_nonneg (by linarith), abs_of_nonneg (by linarith)] at h2
    linarith
  · by_contra hc
    push Not at hc
    have h1 := mono _ _ hi hj hc
    have h2 := hle _ hjm
    rw [abs_of_nonpos (by linarith), abs_of_nonpos (by linarith)] at h2
    linarith
  · rcases Nat.eq_or_lt_of_le h with h | h
    · right; subst h; exact ⟨_, hr, hle⟩
    · by_cases hx : x ≤ rho[j]
      · exact Or.inl hx
      · have h1 := mono _ _ hi hj h
        have h2 := hle _ hjm
        push Not at hx
        rw [abs_of_nonpos (by linarith), abs_of_nonpos (by linarith)] at h2
        linarith
  · rcases Nat.eq_or_lt_of_le h with h | h
    · right; subst h; exact ⟨_, hr, hle⟩
    · by_cases hx : rho[j] ≤ x
      · exact Or.inl hx
      · have h1 := mono _ _ hj hi h
        have h2 := hle _ hjm
        push Not at hx
        rw [abs_of_nonneg (by linarith), abs_of_nonneg (by linarith)] at h2
        linarith

/-- **C208**: for ascending radii, a point that the fit takes is not near any ring whose centre is inside the profile, has a power of no more than 3000 and is not
among the first or the last 50; and each point that is left out is near such a ring or the sample next to an end of that region, or has a greater power, or is
among the first or the last 50. -/
theorem C208_points {rho power : List ℚ} {rings : List (ℚ × ℚ)} (hs : rho.Pairwise (· < ·)) (hl : power.length = rho.length)
    {j : Nat} {r p : ℚ} (hr : rho[j]? = some r) (hp : power[j]? = some p) :
    ((fitMask rho power rings)[j]? = some true →
      50 ≤ j ∧ j + 50 < rho.length ∧ p ≤ 3000 ∧
      ∀ ring ∈ rings, (∃ a ∈ rho.head?, a ≤ ring.1) → (∃ b ∈ rho.getLast?, ring.1 ≤ b) → ¬ Spec.NearRing r ring) ∧
    ((fitMask rho power rings)[j]? = some false →
      j < 50 ∨ rho.length ≤ j + 50 ∨ 3000 < p ∨
      ∃ ring ∈ rings, (∃ a ∈ rho.head?, a ≤ ring.1) ∧ (∃ b ∈ rho.getLast?, ring.1 ≤ b) ∧
        (Spec.NearRing r ring ∨ Spec.Next rho j (ring.1 - ring.2 - 16) ∨ Spec.Next rho j (ring.1 + ring.2 + 16))) := by
  obtain ⟨hj, hrj⟩ := List.getElem?_eq_some_iff.mp hr
  obtain ⟨hj', hpj⟩ := List.getElem?_eq_some_iff.mp hp
  have hne : rho ≠ [] := by rintro rfl; simp at hr
  have hh : rho.head? = some (rho.headD 0) := by cases rho with | nil => exact absurd rfl hne | cons a as => rfl
  have hg : rho.getLast? = some (rho.getLastD 0) := by
    rw [List.getLastD_eq_getLast?, List.getLast?_eq_some_getLast hne]; rfl
  rw [fitMask_get rho power rings hl j hj, hh, hg, hpj]
  simp only [Option.some.injEq, decide_eq_true_eq, decide_eq_false_iff_not, Option.mem_some, exists_eq_left']
  constructor
  · rintro ⟨h1, h2, h3, h4⟩
    refine ⟨h1, h2, h3, fun ring hring ha hb hn => h4 ring hring ha hb ?_⟩
    rw [Spec.NearRing, abs_le] at hn
    exact ⟨(near_iff hs _ r j hr).1 (by linarith [hn.1]), (near_iff hs _ r j hr).2.1 (by linarith [hn.2])⟩
  · intro h
    by_cases h1 : 50 ≤ j
    · by_cases h2 : j + 50 < rho.length
      · by_cases h3 : p ≤ 3000
        · right; right; right
          have h4 : ∃ ring ∈ rings, rho.headD 0 ≤ ring.1 ∧ ring.1 ≤ rho.getLastD 0 ∧
              (argNear rho (ring.1 - ring.2 - 16) ≤ j ∧ j ≤ argNear rho (ring.1 + ring.2 + 16)) := by
            by_contra hc
            apply h
            refine ⟨h1, h2, h3, fun ring hr ha hb hd => hc ⟨ring, hr, ha, hb, hd⟩⟩
          obtain ⟨ring, hring, ha, hb, hlo, hhi⟩ := h4
          refine ⟨ring, hring, ha, hb, ?_⟩
          rcases (near_iff hs _ r j hr).2.2.1 hlo with h5 | h5
          · rcases (near_iff hs _ r j hr).2.2.2 hhi with h6 | h6
            · left; rw [Spec.NearRing, abs_le]; constructor <;> linarith
            · exact Or.inr (Or.inr h6)
          · exact Or.inr (Or.inl h5)
        · exact Or.inr (Or.inr (Or.inl (not_le.mp h3)))
      · exact Or.inr (Or.inl (by omega))
    · exact Or.inl (by omega)

/-- 140 samples of 1 km. -/
def Spec.grid : List ℚ := (List.range 140).map fun k : Nat => (k : ℚ)

/-- Non-vacuity of C208: with a ring at 70 of width 2 the sample at 60 is left out, the one at 51 is taken. -/
example : Spec.grid.Pairwise (· < ·) ∧ (Spec.grid.map fun _ => (1 : ℚ)).length = Spec.grid.length ∧
    (fitMask Spec.grid (Spec.grid.map fun _ => 1) [(70, 2)])[60]? = some false ∧
    (fitMask Spec.grid (Spec.grid.map fun _ => 1) [(70, 2)])[51]? = some true := by
  refine ⟨?_, by simp, by decide +kernel, by decide +kernel⟩
  rw [Spec.grid, List.pairwise_map]
  exact List.pairwise_lt_range.imp fun h => by exact_mod_cast h

/-- **C211, partial**: no point near a ring is taken, if the centre of each ring that comes near the profile is inside the profile.  What is missing is a ring whose
centre is just outside, see `C211_rings_false`. -/
theorem C211_rings_partial {rho power : List ℚ} {rings : List (ℚ × ℚ)} (hs : rho.Pairwise (· < ·)) (hl : power.length = rho.length)
    (hin : ∀ ring ∈ rings, (∃ r ∈ rho, Spec.NearRing r ring) → (∃ a ∈ rho.head?, a ≤ ring.1) ∧ ∃ b ∈ rho.getLast?, ring.1 ≤ b)
    {j : Nat} {r : ℚ} (hr : rho[j]? = some r) (ht : (fitMask rho power rings)[j]? = some true) : ∀ ring ∈ rings, ¬ Spec.NearRing r ring := by
  intro ring hring hn
  obtain ⟨hj, -⟩ := List.getElem?_eq_some_iff.mp hr
  obtain ⟨h1, h2⟩ := hin ring hring ⟨r, List.mem_of_getElem? hr, hn⟩
  exact ((C208_points hs hl hr (List.getElem?_eq_getElem (hl ▸ hj))).1 ht).2.2.2 ring hring h1 h2 hn

/-- Non-vacuity of the partial theorem: the ring at 70 is inside, with its surroundings. -/
example : ∀ ring ∈ [((70 : ℚ), (2 : ℚ))], (∃ r ∈ Spec.grid, Spec.NearRing r ring) →
    (∃ a ∈ Spec.grid.head?, a ≤ ring.1) ∧ ∃ b ∈ Spec.grid.getLast?, ring.1 ≤ b := by
  intro ring h _
  rw [List.mem_singleton.mp h]
  exact ⟨⟨0, by decide +kernel, by norm_num⟩, ⟨139, by decide +kernel, by norm_num⟩⟩

/-- **C211 is false**: a ring of width 50 with its centre 1 km before the profile; the fit takes the sample 52 km from its centre. -/
theorem C211_rings_false : (fitMask Spec.grid (Spec.grid.map fun _ => 1) [(-1, 50)])[51]? = some true ∧ Spec.grid[51]? = some 51 ∧
    Spec.NearRing 51 (-1, 50) := by
  refine ⟨by decide +kernel, by decide +kernel, ?_⟩
  rw [Spec.NearRing, abs_of_nonneg] <;> norm_num

end Verif.Uring
