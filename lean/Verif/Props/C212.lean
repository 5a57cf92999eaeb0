import Verif.Model.SpecFile
import Mathlib.Tactic.Linarith
import Mathlib.Tactic.FieldSimp

/-!
# Writing and reading a spectrogram (C212, C213)
-/
namespace Verif.Spc

theorem lstrip_colon (a b : List Char) : (a ++ ':' :: b).dropWhile blank = a.dropWhile blank ++ ':' :: b := by
  induction a with
  | nil => simp [List.dropWhile, blank]
  | cons c a ih =>
    cases h : blank c
    · simp [h]
    · simp [h, ih]

theorem strip_colon (a b : List Char) : strip (a ++ ':' :: b) = a.dropWhile blank ++ ':' :: (b.reverse.dropWhile blank).reverse := by
  rw [strip, lstrip_colon, List.reverse_append, List.reverse_cons, List.append_assoc, List.singleton_append, lstrip_colon, List.reverse_append,
    List.reverse_cons, List.reverse_reverse, List.append_assoc, List.singleton_append]

theorem rstrip_clean (F : Fmt) (x : ℚ) (p : List Char) (hp : ∀ c ∈ p, blank c = true) :
    ∃ q, (∀ c ∈ q, blank c = true) ∧ ((p ++ F.str x ++ ['\n']).reverse.dropWhile blank).reverse = q ++ F.str x := by
  have h1 : (p ++ F.str x ++ ['\n']).reverse.dropWhile blank = ((F.str x).reverse ++ p.reverse).dropWhile blank := by
    simp [List.dropWhile, blank]
  rw [h1]
  cases e : (F.str x).reverse with
  | nil =>
    refine ⟨((p.reverse).dropWhile blank).reverse, ?_, ?_⟩
    · intro c hc
      exact hp c (by simpa using List.dropWhile_subset blank (List.mem_reverse.mp hc))
    · have : F.str x = [] := by simpa using e
      simp [this]
  | cons c r =>
    have hc : blank c = false := (F.clean x c (by rw [← List.mem_reverse, e]; simp)).1
    refine ⟨p, hp, ?_⟩
    rw [List.cons_append, List.dropWhile_cons_of_neg (by simp [hc]), ← List.cons_append, ← e]
    simp

theorem headVal_line (F : Fmt) (n : String) (x : ℚ) (hn : ':' ∉ n.toList) :
    ((strip (headLine F (n, x))).splitOn ':')[1]?.bind F.float = some x := by
  have e : headLine F (n, x) = (List.replicate (18 - (n.toList ++ [':', ' ']).length) ' ' ++ n.toList) ++ ':' :: ([' '] ++ F.str x ++ ['\n']) := by
    simp [headLine, rjust18]
  rw [e, strip_colon]
  obtain ⟨q, hq, h⟩ := rstrip_clean F x [' '] (by simp [blank])
  rw [h]
  have hno : ':' ∉ (List.replicate (18 - (n.toList ++ [':', ' ']).length) ' ' ++ n.toList).dropWhile blank := by
    intro hm
    have := List.dropWhile_subset blank hm
    rcases List.mem_append.mp this with h1 | h1
    · exact absurd (List.eq_of_mem_replicate h1) (by decide)
    · exact hn h1
  have hno2 : ':' ∉ q ++ F.str x := by
    intro hm
    rcases List.mem_append.mp hm with h1 | h1
    · exact absurd (hq _ h1) (by decide)
    · exact (F.clean x _ h1).2.2 rfl
  rw [List.splitOn_append_cons_self_of_not_mem hno, List.splitOn_eq_singleton hno2]
  have := F.back x q [] hq (by simp)
  simpa using this

theorem row_text (F : Fmt) (x : ℚ) (xs : List ℚ) : ∃ a as, ([','].intercalate ((x :: xs).map F.str) ++ ['\n']).splitOn ',' = a :: as ∧
    F.float a = some x ∧ as.length = xs.length ∧ as.mapM F.float = some xs := by
  induction xs generalizing x with
  | nil =>
    refine ⟨F.str x ++ ['\n'], [], ?_, by simpa using F.back x [] ['\n'] (by simp) (by simp [blank]), rfl, rfl⟩
    have : ',' ∉ F.str x ++ ['\n'] := by
      intro hm
      rcases List.mem_append.mp hm with h1 | h1
      · exact (F.clean x _ h1).2.1 rfl
      · simp at h1
    simpa using List.splitOn_eq_singleton this
  | cons y ys ih =>
    obtain ⟨a, as, h1, h2, h3, h4⟩ := ih y
    refine ⟨F.str x, a :: as, ?_, by simpa using F.back x [] [] (by simp) (by simp), by simp [h3], ?_⟩
    · have hx : ',' ∉ F.str x := fun hm => (F.clean x _ hm).2.1 rfl
      rw [List.map_cons, List.map_cons, List.intercalate_cons_cons, List.append_assoc, List.append_assoc, List.singleton_append,
        List.splitOn_append_cons_self_of_not_mem hx, ← List.map_cons, h1]
    · simp [List.mapM_cons, h2, h4]

theorem readRow_line (F : Fmt) (nf : Nat) (r s : ℚ) (c : List ℚ) (hc : c.length = nf) :
    readRow F nf (bodyLine F (r, c, s)) = some (r, c.map (· / s)) := by
  obtain ⟨a, as, h1, h2, h3, h4⟩ := row_text F r (c.map (· / s))
  have e : toCount (nf : ℚ) = nf := by simp [toCount]
  have hl : as.length = nf := by rw [h3]; simpa using hc
  simp only [readRow, bodyLine, h1, h2, e, Option.bind_some]
  rw [List.take_of_length_le (by omega), h4]
  rfl

theorem mapM_some {α β : Type} (g : α → Option β) (h : α → β) (l : List α) (e : ∀ x ∈ l, g x = some (h x)) : l.mapM g = some (l.map h) := by
  induction l with
  | nil => rfl
  | cons a l ih =>
    rw [List.mapM_cons, e a (by simp), ih fun x hx => e x (by simp [hx])]
    rfl

/-- The file: header and rows. -/
def fileOf (F : Fmt) (f t r : List ℚ) (S : List (List ℚ)) (snorm : List ℚ) : List (List Char) :=
  (header f t).map (headLine F) ++ (r.zip (S.zip snorm)).map (bodyLine F)

theorem file_head (F : Fmt) (f t r : List ℚ) (S : List (List ℚ)) (snorm : List ℚ) (i : Nat) (n : String) (x : ℚ)
    (hi : (header f t)[i]? = some (n, x)) (hne : ':' ∉ n.toList) : headVal F (fileOf F f t r S snorm) i = some x := by
  have hlt : i < ((header f t).map (headLine F)).length := by
    obtain ⟨h, -⟩ := List.getElem?_eq_some_iff.mp hi; simpa using h
  rw [headVal, fileOf, List.getElem?_append_left hlt, List.getElem?_map, hi, Option.map_some, Option.bind_some]
  exact headVal_line F n x hne

theorem file_row (F : Fmt) (f t r : List ℚ) (S : List (List ℚ)) (snorm : List ℚ) (k : Nat) :
    (fileOf F f t r S snorm)[6 + k]? = ((r.zip (S.zip snorm)).map (bodyLine F))[k]? := by
  have h6 : ((header f t).map (headLine F)).length = 6 := by simp [header]
  rw [fileOf, List.getElem?_append_right (by omega), h6, Nat.add_sub_cancel_left]

theorem file_rows (F : Fmt) {f t r snorm : List ℚ} {S : List (List ℚ)} (hz : (r.zip (S.zip snorm)).length = t.length)
    (hc : ∀ c ∈ S, c.length = f.length) : (List.range (toCount (t.length : ℚ))).mapM (fun k =>
      ((fileOf F f t r S snorm)[6 + k]?).bind (readRow F (f.length : ℚ))) =
      some ((r.zip (S.zip snorm)).map fun e => (e.1, e.2.1.map (· / e.2.2))) := by
  have e1 : toCount (t.length : ℚ) = t.length := by simp [toCount]
  rw [e1, ← hz]
  have e2 : (r.zip (S.zip snorm)).map (fun e => (e.1, e.2.1.map (· / e.2.2))) =
      (List.range (r.zip (S.zip snorm)).length).map fun k => (fun e : ℚ × List ℚ × ℚ => (e.1, e.2.1.map (· / e.2.2)))
        ((r.zip (S.zip snorm)).getD k (0, [], 0)) := by
    apply List.ext_getElem
    · simp
    · intro i h1 h2
      have h1' : i < (r.zip (S.zip snorm)).length := by simpa using h1
      simp [List.getElem?_eq_getElem h1']
  rw [e2]
  apply mapM_some
  intro k hk
  have hk' : k < (r.zip (S.zip snorm)).length := List.mem_range.mp hk
  rw [file_row, List.getElem?_map, List.getElem?_eq_getElem hk']
  simp only [Option.map_some, Option.bind_some, List.getD_eq_getElem?_getD, List.getElem?_eq_getElem hk', Option.getD_some]
  have hm := List.of_mem_zip (List.getElem_mem hk')
  exact readRow_line F f.length _ _ _ (hc _ (List.of_mem_zip hm.2).1)

/-- What the reader returns for a file that was written. -/
theorem read_write (F : Fmt) {f t r snorm : List ℚ} {S : List (List ℚ)} (hr : r.length = t.length)
    (hS : S.length = t.length) (hn : snorm.length = t.length) (hc : ∀ c ∈ S, c.length = f.length) :
    readSpec F (fileOf F f t r S snorm) = some ⟨axisOf (t.getD 0 0) t.length ((t.getD (t.length - 1) 0 - t.getD 0 0) / t.length), r,
      axisOf (f.getD 0 0) f.length ((f.getD (f.length - 1) 0 - f.getD 0 0) / f.length), List.zipWith (fun c s => c.map (· / s)) S snorm⟩ := by
  have hz : (r.zip (S.zip snorm)).length = t.length := by simp [hr, hS, hn]
  have hrows := file_rows F hz hc
  have s1 : ((r.zip (S.zip snorm)).map fun e => (e.1, e.2.1.map (· / e.2.2))).map (·.1) = r := by
    rw [List.map_map]
    exact List.map_fst_zip (by simp [hr, hS, hn])
  have s2 : ((r.zip (S.zip snorm)).map fun e => (e.1, e.2.1.map (· / e.2.2))).map (·.2) = List.zipWith (fun c s => c.map (· / s)) S snorm := by
    rw [List.map_map]
    have : ((fun e : ℚ × List ℚ => e.2) ∘ fun e : ℚ × List ℚ × ℚ => (e.1, e.2.1.map (· / e.2.2))) =
        (fun e : List ℚ × ℚ => e.1.map (· / e.2)) ∘ (·.2) := rfl
    rw [this, ← List.map_map, List.map_snd_zip (by simp [hr, hS, hn]), List.map_zip_eq_zipWith]; rfl
  have r0 := file_head F f t r S snorm 0 _ _ (by rw [header]; rfl) (by decide +kernel)
  have r1 := file_head F f t r S snorm 1 _ _ (by rw [header]; rfl) (by decide +kernel)
  have r2 := file_head F f t r S snorm 2 _ _ (by rw [header]; rfl) (by decide +kernel)
  have r3 := file_head F f t r S snorm 3 _ _ (by rw [header]; rfl) (by decide +kernel)
  have r4 := file_head F f t r S snorm 4 _ _ (by rw [header]; rfl) (by decide +kernel)
  have r5 := file_head F f t r S snorm 5 _ _ (by rw [header]; rfl) (by decide +kernel)
  generalize fileOf F f t r S snorm = file at *
  simp only [readSpec, r0, r1, r2, r3, r4, r5, Option.bind_eq_bind, Option.bind_some, hrows, s1, s2, pure]

/-- **C212**: the reader gives back the radii and the normalised spectrogram of a file that was written, for any numbers of times and frequencies other than 0,
and as many times and frequencies as there were, beginning with the first ones. -/
theorem C212_read (F : Fmt) {f t r snorm : List ℚ} {S : List (List ℚ)} (hf : f ≠ []) (ht : t ≠ []) (hr : r.length = t.length)
    (hS : S.length = t.length) (hn : snorm.length = t.length) (hc : ∀ c ∈ S, c.length = f.length) :
    ∃ lines o, writeSpec F f t r S snorm = some lines ∧ readSpec F lines = some o ∧
      o.rho = r ∧ o.spec = List.zipWith (fun c s => c.map (· / s)) S snorm ∧
      o.freq.length = f.length ∧ o.time.length = t.length ∧ o.freq[0]? = f[0]? ∧ o.time[0]? = t[0]? := by
  refine ⟨fileOf F f t r S snorm, _, by rw [writeSpec, if_neg (by tauto), fileOf], read_write F hr hS hn hc, rfl, rfl, by simp [axisOf, toCount],
    by simp [axisOf, toCount], ?_, ?_⟩
  · cases f with
    | nil => exact absurd rfl hf
    | cons a as => simp [axisOf, toCount]
  · cases t with
    | nil => exact absurd rfl ht
    | cons a as => simp [axisOf, toCount]

/-- A way to write numbers, to show that there is one. -/
def Spec.tally : Fmt where
  str x := List.replicate x.num.toNat 'p' ++ List.replicate (-x.num).toNat 'm' ++ List.replicate x.den 'd'
  float l := some (((l.count 'p' : ℚ) - l.count 'm') / l.count 'd')
  back x p q hp hq := by
    have z : ∀ (c : Char) (l : List Char), blank c = false → (∀ c ∈ l, blank c = true) → l.count c = 0 := fun c l hc hl =>
      List.count_eq_zero.mpr fun hm => by rw [hl c hm] at hc; cases hc
    simp only [List.count_append, z 'p' p rfl hp, z 'm' p rfl hp, z 'd' p rfl hp, z 'p' q rfl hq, z 'm' q rfl hq, z 'd' q rfl hq,
      List.count_replicate]
    have h : ((x.num.toNat : ℚ) - (-x.num).toNat) = x.num := by
      have : ((x.num.toNat : ℤ) - (-x.num).toNat) = x.num := by omega
      exact_mod_cast congrArg (Int.cast (R := ℚ)) this
    simp [h, Rat.num_div_den]
  clean x c h := by
    simp only [List.mem_append, List.mem_replicate] at h
    rcases h with (⟨-, rfl⟩ | ⟨-, rfl⟩) | ⟨-, rfl⟩ <;> decide

/-- Non-vacuity of C212: two times and three frequencies. -/
example : ∃ lines o, writeSpec Spec.tally [-1, 0, 1] [10, 20] [100000, 100010] [[1, 2, 3], [4, 5, 6]] [2, 4] = some lines ∧
    readSpec Spec.tally lines = some o ∧ o.rho = [100000, 100010] ∧ o.spec = [[1 / 2, 1, 3 / 2], [1, 5 / 4, 3 / 2]] := by
  obtain ⟨lines, o, h1, h2, h3, h4, -⟩ := C212_read Spec.tally (f := [-1, 0, 1]) (t := [10, 20]) (r := [100000, 100010])
    (S := [[1, 2, 3], [4, 5, 6]]) (snorm := [2, 4]) (by simp) (by simp) rfl rfl rfl (by simp)
  refine ⟨lines, o, h1, h2, h3, ?_⟩
  rw [h4]; norm_num

/-- The values with a fixed step. -/
def Spec.Even (l : List ℚ) (a d : ℚ) : Prop := ∀ (k : ℕ) (x : ℚ), l[k]? = some x → x = a + k * d

theorem axis_even {l : List ℚ} {a d : ℚ} (hne : l ≠ []) (h : Spec.Even l a d) (k : ℕ) (hk : k < l.length) :
    (axisOf (l.getD 0 0) l.length ((l.getD (l.length - 1) 0 - l.getD 0 0) / l.length))[k]? = some (a + k * d - k * d / l.length) := by
  have hpos : 0 < l.length := List.length_pos_iff.mpr hne
  have h0 : l.getD 0 0 = a := by
    have := h 0 _ (List.getElem?_eq_getElem hpos)
    rw [List.getD_eq_getElem?_getD, List.getElem?_eq_getElem hpos, Option.getD_some, this]; simp
  have hl : l.getD (l.length - 1) 0 = a + ((l.length : ℚ) - 1) * d := by
    have hlt : l.length - 1 < l.length := by omega
    have := h _ _ (List.getElem?_eq_getElem hlt)
    rw [List.getD_eq_getElem?_getD, List.getElem?_eq_getElem hlt, Option.getD_some, this]
    push_cast [hpos]; ring
  have hc : toCount (l.length : ℚ) = l.length := by simp [toCount]
  have hq : (l.length : ℚ) ≠ 0 := by exact_mod_cast hpos.ne'
  rw [axisOf, hc, List.getElem?_map, List.getElem?_range hk, h0, hl]
  simp only [Option.map_some, Option.some.injEq]
  field_simp
  ring

/-- **C213, partial**: of frequencies and times with a fixed step, the reader gives number `k` too small by `k` parts of the step, where the parts are as
many as there are values.  What is missing are the values themselves, see `C213_axes_false`. -/
theorem C213_axes_partial (F : Fmt) {f t r snorm : List ℚ} {S : List (List ℚ)} (hf : f ≠ []) (ht : t ≠ []) (hr : r.length = t.length)
    (hS : S.length = t.length) (hn : snorm.length = t.length) (hc : ∀ c ∈ S, c.length = f.length) {f0 df t0 dt : ℚ}
    (hef : Spec.Even f f0 df) (het : Spec.Even t t0 dt) :
    ∃ lines o, writeSpec F f t r S snorm = some lines ∧ readSpec F lines = some o ∧
      (∀ (k : ℕ) (x : ℚ), f[k]? = some x → o.freq[k]? = some (x - k * df / f.length)) ∧
      (∀ (k : ℕ) (x : ℚ), t[k]? = some x → o.time[k]? = some (x - k * dt / t.length)) := by
  refine ⟨fileOf F f t r S snorm, _, by rw [writeSpec, if_neg (by tauto), fileOf], read_write F hr hS hn hc, fun k x hk => ?_, fun k x hk => ?_⟩
  · obtain ⟨hlt, -⟩ := List.getElem?_eq_some_iff.mp hk
    rw [hef k x hk]; exact axis_even hf hef k hlt
  · obtain ⟨hlt, -⟩ := List.getElem?_eq_some_iff.mp hk
    rw [het k x hk]; exact axis_even ht het k hlt

/-- Non-vacuity of C213. -/
example : Spec.Even [-1, 0, 1] (-1) 1 ∧ Spec.Even [10, 20] 10 10 := by
  constructor <;> intro k x h
  · match k, h with
    | 0, h => simp at h; subst h; norm_num
    | 1, h => simp at h; subst h; norm_num
    | 2, h => simp at h; subst h; norm_num
  · match k, h with
    | 0, h => simp at h; subst h; norm_num
    | 1, h => simp at h; subst h; norm_num

/-- **C213 is false**: whatever the file, of frequencies with a fixed step other than 0 every one but the first comes back wrong, and so do the times. -/
theorem C213_axes_false (F : Fmt) {f t r snorm : List ℚ} {S : List (List ℚ)} (hf : f ≠ []) (ht : t ≠ []) (hr : r.length = t.length)
    (hS : S.length = t.length) (hn : snorm.length = t.length) (hc : ∀ c ∈ S, c.length = f.length) {f0 df t0 dt : ℚ}
    (hef : Spec.Even f f0 df) (het : Spec.Even t t0 dt) (hdf : df ≠ 0) (hdt : dt ≠ 0) :
    ∃ lines o, writeSpec F f t r S snorm = some lines ∧ readSpec F lines = some o ∧
      (∀ k : ℕ, 0 < k → k < f.length → o.freq[k]? ≠ f[k]?) ∧ (∀ k : ℕ, 0 < k → k < t.length → o.time[k]? ≠ t[k]?) := by
  obtain ⟨lines, o, h1, h2, h3, h4⟩ := C213_axes_partial F hf ht hr hS hn hc hef het
  refine ⟨lines, o, h1, h2, fun k hk hl => ?_, fun k hk hl => ?_⟩
  · have hq : (k : ℚ) * df / f.length ≠ 0 := by
      have : (f.length : ℚ) ≠ 0 := by exact_mod_cast (by omega : f.length ≠ 0)
      have : (k : ℚ) ≠ 0 := by exact_mod_cast hk.ne'
      positivity
    rw [List.getElem?_eq_getElem hl, h3 k _ (List.getElem?_eq_getElem hl)]
    intro h
    rw [Option.some.injEq] at h
    exact hq (by linarith)
  · have hq : (k : ℚ) * dt / t.length ≠ 0 := by
      have : (t.length : ℚ) ≠ 0 := by exact_mod_cast (by omega : t.length ≠ 0)
      have : (k : ℚ) ≠ 0 := by exact_mod_cast hk.ne'
      positivity
    rw [List.getElem?_eq_getElem hl, h4 k _ (List.getElem?_eq_getElem hl)]
    intro h
    rw [Option.some.injEq] at h
    exact hq (by linarith)

end Verif.Spc
