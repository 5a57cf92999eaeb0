import Verif.Model.Trim
import Verif.Props.C126
import Mathlib.Data.List.TakeWhile

/-!
# C128 Trimmed DLP files
-/
namespace Verif.Out
open Verif.Rsr Verif.Pds

namespace Spec

/-- A line of a table without its end: something stands in it, no comment and no end of a line. -/
def TableLine (b : List Char) : Prop := (∀ c ∈ b, c ≠ '\r' ∧ c ≠ '\n' ∧ c ≠ '#') ∧ ∃ c ∈ b, c ≠ ' ' ∧ c ≠ '\t'

/-- Lines, each with the end `e`. -/
def ended (e : List Char) (bs : List (List Char)) : List Char := bs.flatMap (· ++ e)

/-- The text does not hold `M_`. -/
def NoM (s : List Char) : Prop := ¬ "M_".toList <:+: s

end Spec
open Verif.Out.Spec

/-! ### Lines -/

theorem universal_char {c : Char} (h : c ≠ '\r') (cs : List Char) : universal (c :: cs) = c :: universal cs := by
  rw [universal] <;> simp_all

theorem crlf_char {c : Char} (h : c ≠ '\n') (cs : List Char) : crlf (c :: cs) = c :: crlf cs := by
  rw [crlf]
  simp_all

theorem universal_line {b : List Char} (h : ∀ c ∈ b, c ≠ '\r') (r : List Char) : universal (b ++ ['\r', '\n'] ++ r) = b ++ ['\n'] ++ universal r := by
  induction b with
  | nil => rfl
  | cons c b ih =>
    rw [List.cons_append, List.cons_append, universal_char (h c (by simp)), ih fun d hd => h d (by simp [hd])]
    rfl

theorem crlf_line {b : List Char} (h : ∀ c ∈ b, c ≠ '\n') (r : List Char) : crlf (b ++ ['\n'] ++ r) = b ++ ['\r', '\n'] ++ crlf r := by
  induction b with
  | nil => rfl
  | cons c b ih =>
    rw [List.cons_append, List.cons_append, crlf_char (h c (by simp)), ih fun d hd => h d (by simp [hd])]
    rfl

theorem readlines_line {b : List Char} (h : ∀ c ∈ b, c ≠ '\n') (r : List Char) : readlines (b ++ ['\n'] ++ r) = (b ++ ['\n']) :: readlines r := by
  induction b with
  | nil => rfl
  | cons c b ih =>
    rw [List.cons_append, List.cons_append, readlines, if_neg (h c (by simp)), ih fun d hd => h d (by simp [hd])]

theorem universal_file {bs : List (List Char)} (h : ∀ b ∈ bs, ∀ c ∈ b, c ≠ '\r') : universal (ended ['\r', '\n'] bs) = ended ['\n'] bs := by
  induction bs with
  | nil => rfl
  | cons b bs ih =>
    rw [ended, List.flatMap_cons, universal_line (h b (by simp)), ended, List.flatMap_cons]
    exact congrArg _ (ih fun d hd => h d (by simp [hd]))

theorem crlf_file {bs : List (List Char)} (h : ∀ b ∈ bs, ∀ c ∈ b, c ≠ '\n') : crlf (ended ['\n'] bs) = ended ['\r', '\n'] bs := by
  induction bs with
  | nil => rfl
  | cons b bs ih =>
    rw [ended, List.flatMap_cons, crlf_line (h b (by simp)), ended, List.flatMap_cons]
    exact congrArg _ (ih fun d hd => h d (by simp [hd]))

theorem readlines_file {bs : List (List Char)} (h : ∀ b ∈ bs, ∀ c ∈ b, c ≠ '\n') : readlines (ended ['\n'] bs) = bs.map (· ++ ['\n']) := by
  induction bs with
  | nil => rfl
  | cons b bs ih =>
    rw [ended, List.flatMap_cons, readlines_line (h b (by simp)), List.map_cons]
    exact congrArg _ (ih fun d hd => h d (by simp [hd]))

theorem row_of {b : List Char} (h : TableLine b) : isRow (b ++ ['\n']) = true := by
  have e : (b ++ ['\n']).takeWhile (· ≠ '#') = b ++ ['\n'] := by
    rw [List.takeWhile_eq_self_iff]
    intro c hc
    rcases List.mem_append.1 hc with hc | hc
    · exact decide_eq_true (h.1 c hc).2.2
    · rw [List.mem_singleton.1 hc]; decide
  obtain ⟨c, hc, h1, h2⟩ := h.2
  rw [isRow, e, List.any_eq_true]
  have := h.1 c hc
  exact ⟨c, List.mem_append_left _ hc, by simp [h1, h2, this.1, this.2.1]⟩

/-! ### Rows -/

theorem filter_index {α : Type} (d : α) (p : α → Bool) : ∀ l : List α,
    ((List.range l.length).filter fun i => p (l.getD i d)).map (fun i => l.getD i d) = l.filter p := by
  intro l
  induction l with
  | nil => rfl
  | cons a l ih =>
    rw [List.length_cons, List.range_succ_eq_map, List.filter_cons, List.filter_map, List.filter_cons]
    have e1 : ((fun i => p ((a :: l).getD i d)) ∘ Nat.succ) = fun i => p (l.getD i d) := by
      funext i
      simp
    have e2 : ((fun i => (a :: l).getD i d) ∘ Nat.succ) = fun i => l.getD i d := by
      funext i
      simp
    rw [e1, List.getD_cons_zero]
    split
    · rw [List.map_cons, List.map_map, e2, ih, List.getD_cons_zero]
    · rw [List.map_map, e2, ih]

/-- **C128**, the rows: if every line is a row of the table, the lines within the limits are kept, in their order. -/
theorem C128_rows_partial (num : List Char → ℚ) {lines : List (List Char)} (hrow : ∀ l ∈ lines, isRow l = true) (lo hi : ℚ) :
    trimLines num lines lo hi = lines.filter fun l => decide (lo ≤ num l) && decide (num l ≤ hi) := by
  have e : lines.filter isRow = lines := List.filter_eq_self.2 hrow
  rw [trimLines]
  simp only [e, List.length_map]
  rw [← filter_index [] (fun l => decide (lo ≤ num l) && decide (num l ≤ hi)) lines]
  congr 1
  apply List.filter_congr
  intro i hi'
  have hi' := List.mem_range.1 hi'
  have : (lines.map num).getD i 0 = num (lines.getD i []) := by
    rw [List.getD_eq_getElem?_getD, List.getElem?_map, List.getElem?_eq_getElem hi', List.getD_eq_getElem?_getD,
      List.getElem?_eq_getElem hi']
    rfl
  rw [this]

/-- **C128** is false of a file with a comment: the lines before those asked for are kept. -/
theorem C128_comment_false : trimLines (fun l => if l = "2.0\n".toList then 2 else if l = "3.0\n".toList then 3 else 1)
    ["# radius\n".toList, "1.0\n".toList, "2.0\n".toList, "3.0\n".toList] 2 2 = ["1.0\n".toList] := by decide +kernel

/-! ### Names -/

theorem insertM_none (ins : List Char) : ∀ {s : List Char}, NoM s → insertM ins s = s
  | [], _ => rfl
  | [c], _ => rfl
  | c :: d :: cs, h => by
    have hn : ¬ (c = 'M' ∧ d = '_') := by
      rintro ⟨rfl, rfl⟩
      exact h ⟨[], cs, rfl⟩
    rw [insertM, if_neg hn, insertM_none ins fun hc => h (hc.trans ⟨[c], [], by simp⟩)]

theorem insertM_one (ins : List Char) {suf : List Char} (hs : NoM suf) : ∀ {pre : List Char}, NoM (pre ++ ['M']) →
    insertM ins (pre ++ ('M' :: '_' :: suf)) = pre ++ ('M' :: '_' :: (ins ++ suf))
  | [], _ => by rw [List.nil_append, insertM, if_pos ⟨rfl, rfl⟩, insertM_none ins hs]; rfl
  | [c], h => by
    rw [List.singleton_append, insertM, if_neg (by rintro ⟨-, hc⟩; cases hc)]
    have := insertM_one ins hs (pre := []) fun hc => h (hc.trans ⟨[c], [], by simp⟩)
    rw [List.nil_append] at this
    rw [this]
    rfl
  | c :: d :: cs, h => by
    have hn : ¬ (c = 'M' ∧ d = '_') := by
      rintro ⟨rfl, rfl⟩
      exact h ⟨[], cs ++ ['M'], rfl⟩
    rw [List.cons_append, List.cons_append, insertM, if_neg hn]
    have := insertM_one ins hs (pre := d :: cs) fun hc => h (hc.trans ⟨[c], [], by simp⟩)
    rw [List.cons_append] at this
    rw [this]
    rfl

theorem zfill0 (n : Nat) : zfillInt 0 n = decimal n := by
  rw [zfillInt, if_neg (by omega), Int.natAbs_natCast, Nat.zero_sub]
  rfl

theorem split_at {x : Char} : ∀ {a b c d : List Char}, x ∉ a → x ∉ c → a ++ x :: b = c ++ x :: d → a = c ∧ b = d
  | [], _, [], _, _, _, h => ⟨rfl, (List.cons.inj h).2⟩
  | [], _, e :: c, _, _, hc, h => by
    have := (List.cons.inj h).1
    simp [this] at hc
  | e :: a, _, [], _, ha, _, h => by
    have := (List.cons.inj h).1
    simp [this] at ha
  | e :: a, b, f :: c, d, ha, hc, h => by
    obtain ⟨h1, h2⟩ := List.cons.inj h
    obtain ⟨h3, h4⟩ := split_at (fun hx => ha (List.mem_cons_of_mem _ hx)) (fun hx => hc (List.mem_cons_of_mem _ hx)) h2
    exact ⟨by rw [h1, h3], h4⟩

theorem not_in_decimal {x : Char} (hx : isDigit x = false) (n : Nat) : x ∉ decimal n := by
  intro h
  have := List.all_eq_true.1 (value_decimal n).2.1 x h
  rw [hx] at this
  cases this

theorem decimal_inj {m n : Nat} (h : decimal m = decimal n) : m = n := by
  rw [← (value_decimal m).1, h, (value_decimal n).1]

theorem pyInt_nat (n : Nat) : pyInt (n : ℚ) = n := by
  simp [pyInt]

/-- **C128**, the names: limits in whole kilometres stand in the name, and different ones give different names. -/
theorem C128_name {out dirname d pre suf : List Char} (hd : fromRev dirname = some d) (hp : NoM (pre ++ ['M'])) (hs : NoM suf)
    (lo hi lo' hi' : Nat) :
    trimPath out dirname (pre ++ ('M' :: '_' :: suf)) lo hi =
      .ok (out ++ d ++ '/' :: (pre ++ ('M' :: '_' :: (decimal lo ++ '-' :: decimal hi ++ '_' :: suf)))) ∧
    (trimPath out dirname (pre ++ ('M' :: '_' :: suf)) lo hi = trimPath out dirname (pre ++ ('M' :: '_' :: suf)) lo' hi' →
      lo = lo' ∧ hi = hi') := by
  have key : ∀ lo hi : Nat, trimPath out dirname (pre ++ ('M' :: '_' :: suf)) lo hi =
      .ok (out ++ d ++ '/' :: (pre ++ ('M' :: '_' :: (decimal lo ++ '-' :: decimal hi ++ '_' :: suf)))) := by
    intro lo hi
    simp only [trimPath, hd, pyInt_nat, zfill0, insertM_one _ hs hp]
    simp [List.append_assoc]
  refine ⟨key lo hi, ?_⟩
  rw [key, key]
  intro h
  have h1 := List.append_cancel_left (Except.ok.inj h)
  have h2 := List.append_cancel_left (List.cons.inj h1).2
  have h3 := (List.cons.inj (List.cons.inj h2).2).2
  rw [List.append_assoc, List.append_assoc, List.cons_append, List.cons_append] at h3
  obtain ⟨e1, e2⟩ := split_at (not_in_decimal (by decide) _) (not_in_decimal (by decide) _) h3
  obtain ⟨e3, -⟩ := split_at (not_in_decimal (by decide) _) (not_in_decimal (by decide) _) e2
  exact ⟨decimal_inj e1, decimal_inj e3⟩

/-- **C128** is false of names for limits that are not whole: they share one. -/
theorem C128_name_false : trimPath "o/".toList "x/Rev007".toList "DLP_0500M_1.TAB".toList (874001 / 10) 87500 =
    trimPath "o/".toList "x/Rev007".toList "DLP_0500M_1.TAB".toList (874009 / 10) 87500 := by decide +kernel

/-- **C128**, the resolution: it is found in the name of the trimmed file as in that of the original one. -/
theorem C128_resolution (rnd : ℚ → ℚ) (factor : ℚ) {out dirname d pre n suf : List Char} (lo hi : ℚ) (hd : fromRev dirname = some d)
    (hn : n.length = 4) (hm : NoM (pre ++ "DLP_".toList ++ n ++ ['M'])) (hs : NoM suf)
    (h1 : ¬ "DLP_".toList <:+: (out ++ d ++ '/' :: pre) ++ "DLP".toList) (h2 : ¬ "DLP_".toList <:+: (dirname ++ '/' :: pre) ++ "DLP".toList) :
    ∃ path, trimPath out dirname (pre ++ "DLP_".toList ++ n ++ ('M' :: '_' :: suf)) lo hi = .ok path ∧
      minValid rnd path factor = minValid rnd (dirname ++ '/' :: (pre ++ "DLP_".toList ++ n ++ ('M' :: '_' :: suf))) factor := by
  refine ⟨out ++ d ++ '/' :: (pre ++ "DLP_".toList ++ n ++ ('M' :: '_' :: ((zfillInt 0 (pyInt lo) ++ '-' :: zfillInt 0 (pyInt hi) ++ ['_']) ++ suf))),
    by simp only [trimPath, hd, insertM_one _ hs hm], ?_⟩
  have e1 : ∀ r : List Char, out ++ d ++ '/' :: (pre ++ "DLP_".toList ++ n ++ r) =
      (out ++ d ++ '/' :: pre) ++ ("DLP_".toList ++ (n ++ r)) := by
    intro r
    simp only [List.append_assoc, List.cons_append]
  have e2 : ∀ r : List Char, dirname ++ '/' :: (pre ++ "DLP_".toList ++ n ++ r) =
      (dirname ++ '/' :: pre) ++ ("DLP_".toList ++ (n ++ r)) := by
    intro r
    simp only [List.append_assoc, List.cons_append]
  rw [e1, e2, minValid, minValid, after_first h1, after_first h2]
  simp only [List.take_left' hn]

/-! ### Files -/

/-- **C128**, the file: it holds exactly the rows within the limits, and the label is a copy.  Partial: the original lines end with CR LF, the
new ones with LF only. -/
theorem C128_file_partial (num : List Char → ℚ) {fs : Files} {out dirname basename path label : List Char} {lo hi : ℚ} {overwrite : Bool}
    {bs : List (List Char)} (hp : trimPath out dirname basename lo hi = .ok path) (hb : ∀ b ∈ bs, TableLine b)
    (hf : fs (dirname ++ '/' :: basename) = some (ended ['\r', '\n'] bs)) (hl : fs (toLbl (dirname ++ '/' :: basename)) = some label)
    (hw : fs path = none ∨ overwrite = true) (hne : toLbl path ≠ path) (hne' : path ≠ toLbl (dirname ++ '/' :: basename)) :
    ∃ fs', trimDlp num fs out dirname basename lo hi overwrite true = .ok (path, fs') ∧
      fs' path = some (ended ['\n'] (bs.filter fun b => decide (lo ≤ num (b ++ ['\n'])) && decide (num (b ++ ['\n']) ≤ hi))) ∧
      fs' (toLbl path) = some label ∧ ∀ q, q ≠ path → q ≠ toLbl path → fs' q = fs q := by
  have hc : (true && ((fs path).isNone || overwrite)) = true := by
    rcases hw with h | h
    · rw [h]; rfl
    · rw [h]; simp
  have ht : trimLines num (readlines (universal (ended ['\r', '\n'] bs))) lo hi =
      (bs.filter fun b => decide (lo ≤ num (b ++ ['\n'])) && decide (num (b ++ ['\n']) ≤ hi)).map (· ++ ['\n']) := by
    rw [universal_file fun b h c hc => ((hb b h).1 c hc).1, readlines_file fun b h c hc => ((hb b h).1 c hc).2.1,
      C128_rows_partial, List.filter_map]
    · rfl
    · intro l hl
      obtain ⟨b, h, rfl⟩ := List.mem_map.1 hl
      exact row_of (hb b h)
  refine ⟨(fs.put path (trimLines num (readlines (universal (ended ['\r', '\n'] bs))) lo hi).flatten).put (toLbl path) label, ?_, ?_, ?_, ?_⟩
  · have h1 : (fs.put path (trimLines num (readlines (universal (ended ['\r', '\n'] bs))) lo hi).flatten) (toLbl (dirname ++ '/' :: basename)) =
        some label := by rw [Files.put, if_neg hne'.symm, hl]
    simp only [trimDlp, hp, bind, Except.bind, hc, if_true, hf, h1]
  · rw [Files.put, if_neg hne.symm, Files.put, if_pos rfl, ht, ended, List.flatMap_def]
  · rw [Files.put, if_pos rfl]
  · intro q h1 h2
    rw [Files.put, if_neg h2, Files.put, if_neg h1]

/-- **C128**, a trimmed file that exists is returned as it is. -/
theorem C128_kept (num : List Char → ℚ) {fs : Files} {out dirname basename path s : List Char} {lo hi : ℚ} (write : Bool)
    (hp : trimPath out dirname basename lo hi = .ok path) (hf : fs path = some s) :
    trimDlp num fs out dirname basename lo hi false write = .ok (path, fs) := by
  have hc : (write && ((fs path).isNone || false)) = false := by rw [hf]; simp
  simp only [trimDlp, hp, bind, Except.bind, hc, if_false, Bool.false_eq_true]

/-- A number with one decimal. -/
def demoNum (l : List Char) : ℚ := value (l.takeWhile isDigit) + value (((l.dropWhile isDigit).drop 1).takeWhile isDigit) / 10

/-- Two rows and their label. -/
def demoFiles : Files := fun p =>
  if p = "x/Rev007/DLP_0500M_1.TAB".toList then some "87400.5,0\r\n87400.7,0\r\n".toList
  else if p = "x/Rev007/DLP_0500M_1.LBL".toList then some "ROWS = 2".toList else none

/-- **C128** is false of two calls with limits that differ by less than a kilometre: the second one returns the rows of the first. -/
theorem C128_stale_false : ∃ fs, trimDlp demoNum demoFiles "o/".toList "x/Rev007".toList "DLP_0500M_1.TAB".toList (874006 / 10) 87500 false true =
      .ok ("o/Rev007/DLP_0500M_87400-87500_1.TAB".toList, fs) ∧
    fs "o/Rev007/DLP_0500M_87400-87500_1.TAB".toList = some "87400.7,0\n".toList ∧
    trimDlp demoNum fs "o/".toList "x/Rev007".toList "DLP_0500M_1.TAB".toList 87400 87500 false true =
      .ok ("o/Rev007/DLP_0500M_87400-87500_1.TAB".toList, fs) := by
  have hp : trimPath "o/".toList "x/Rev007".toList "DLP_0500M_1.TAB".toList (874006 / 10) 87500 =
    .ok "o/Rev007/DLP_0500M_87400-87500_1.TAB".toList := by decide +kernel
  obtain ⟨fs, h1, h2, -, -⟩ := C128_file_partial demoNum (fs := demoFiles) (bs := ["87400.5,0".toList, "87400.7,0".toList]) (label := "ROWS = 2".toList)
    (overwrite := false) hp (by
      intro b hb
      rcases List.mem_cons.1 hb with rfl | hb
      · exact ⟨by decide +kernel, '8', by decide +kernel, by decide, by decide⟩
      · rw [List.mem_singleton.1 hb]
        exact ⟨by decide +kernel, '8', by decide +kernel, by decide, by decide⟩)
    (by decide +kernel) (by decide +kernel) (Or.inl (by decide +kernel)) (by decide +kernel) (by decide +kernel)
  have e : ended ['\n'] (["87400.5,0".toList, "87400.7,0".toList].filter fun b => decide ((874006 / 10 : ℚ) ≤ demoNum (b ++ ['\n'])) &&
    decide (demoNum (b ++ ['\n']) ≤ 87500)) = "87400.7,0\n".toList := by decide +kernel
  rw [e] at h2
  exact ⟨fs, h1, h2, C128_kept demoNum true (by decide +kernel) h2⟩

/-- **C128** is false of the label: it still tells the number of rows of the original file. -/
theorem C128_label_false : ∃ fs, trimDlp demoNum demoFiles "o/".toList "x/Rev007".toList "DLP_0500M_1.TAB".toList (874006 / 10) 87500 true true =
      .ok ("o/Rev007/DLP_0500M_87400-87500_1.TAB".toList, fs) ∧
    fs "o/Rev007/DLP_0500M_87400-87500_1.TAB".toList = some "87400.7,0\n".toList ∧
    fs "o/Rev007/DLP_0500M_87400-87500_1.LBL".toList = some "ROWS = 2".toList := by
  have hp : trimPath "o/".toList "x/Rev007".toList "DLP_0500M_1.TAB".toList (874006 / 10) 87500 =
    .ok "o/Rev007/DLP_0500M_87400-87500_1.TAB".toList := by decide +kernel
  obtain ⟨fs, h1, h2, h3, -⟩ := C128_file_partial demoNum (fs := demoFiles) (bs := ["87400.5,0".toList, "87400.7,0".toList]) (label := "ROWS = 2".toList)
    (overwrite := true) hp (by
      intro b hb
      rcases List.mem_cons.1 hb with rfl | hb
      · exact ⟨by decide +kernel, '8', by decide +kernel, by decide, by decide⟩
      · rw [List.mem_singleton.1 hb]
        exact ⟨by decide +kernel, '8', by decide +kernel, by decide, by decide⟩)
    (by decide +kernel) (by decide +kernel) (Or.inl (by decide +kernel)) (by decide +kernel) (by decide +kernel)
  have e : ended ['\n'] (["87400.5,0".toList, "87400.7,0".toList].filter fun b => decide ((874006 / 10 : ℚ) ≤ demoNum (b ++ ['\n'])) &&
    decide (demoNum (b ++ ['\n']) ≤ 87500)) = "87400.7,0\n".toList := by decide +kernel
  rw [e] at h2
  have e2 : toLbl "o/Rev007/DLP_0500M_87400-87500_1.TAB".toList = "o/Rev007/DLP_0500M_87400-87500_1.LBL".toList := by decide +kernel
  rw [e2] at h3
  exact ⟨fs, h1, h2, h3⟩

/-- The same in another directory. -/
def tableFiles : Files := fun p =>
  if p = "TABLES/Rev007/DLP_0500M_1.TAB".toList then some "87400.5,0\r\n".toList
  else if p = "TABLES/Rev007/DLP_0500M_1.LBL".toList then some "ROWS = 1".toList else none

/-- **C128** is false of directories with `TAB` in their names: the label is looked for in another directory. -/
theorem C128_directory_false :
    (match trimDlp demoNum tableFiles "o/".toList "TABLES/Rev007".toList "DLP_0500M_1.TAB".toList 87400 87500 false true with
      | .error .key => true | _ => false) = true := by decide +kernel

/-! ### Examples -/

example : trimLines demoNum ["87400.5,0\n".toList, "87400.7,0\n".toList, "87401.0,0\n".toList] (874005 / 10) 87400.9 =
    ["87400.5,0\n".toList, "87400.7,0\n".toList] := by
  rw [C128_rows_partial demoNum (by decide +kernel)]
  decide +kernel

example : trimPath "o/".toList "x/Rev007".toList ("RSS_2005_123_DLP_0500".toList ++ ('M' :: '_' :: "1.TAB".toList)) 87400 87500 ≠
    trimPath "o/".toList "x/Rev007".toList ("RSS_2005_123_DLP_0500".toList ++ ('M' :: '_' :: "1.TAB".toList)) 8740 87500 := by
  intro h
  have := (C128_name (out := "o/".toList) (dirname := "x/Rev007".toList) (d := "Rev007".toList) (pre := "RSS_2005_123_DLP_0500".toList)
    (suf := "1.TAB".toList) (by decide +kernel) (by unfold NoM; decide +kernel) (by unfold NoM; decide +kernel) 87400 87500 8740 87500).2 (by exact_mod_cast h)
  omega

example : ∃ path, trimPath "o/".toList "x/Rev007".toList ("RSS_".toList ++ "DLP_".toList ++ "0500".toList ++ ('M' :: '_' :: "1.TAB".toList)) 87400 87500 = .ok path ∧
    minValid rnd53 path (3 / 4) =
      minValid rnd53 ("x/Rev007".toList ++ '/' :: ("RSS_".toList ++ "DLP_".toList ++ "0500".toList ++ ('M' :: '_' :: "1.TAB".toList))) (3 / 4) :=
  C128_resolution rnd53 (3 / 4) (d := "Rev007".toList) 87400 87500 (by decide +kernel) rfl (by unfold NoM; decide +kernel) (by unfold NoM; decide +kernel) (by decide +kernel)
    (by decide +kernel)

end Verif.Out
