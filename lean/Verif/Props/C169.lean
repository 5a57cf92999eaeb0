import Verif.Model.BatchJobs
import Verif.Props.C164
import Verif.Props.C127

/-!
# C169: the programs of a parallel batch are the template with its keywords replaced

pipeline/construct_batch_parallel_CSVtoTAU_20260130.py, pipeline/batch_parallel_CSVtoTAU_template-20260130a.py.
-/
namespace Verif.Jobs
open Verif Verif.Web Verif.Rev Verif.Out

namespace Spec

/-- The keywords that the driver program knows, in alphabetical order. -/
def names : List (List Char) :=
  ["BAND".toList, "CAL_FILEPATH".toList, "DESCRIPTION".toList, "DIREC".toList, "DLP_FILEPATH".toList, "DRHO_KM".toList, "DSN".toList,
   "GEO_FILEPATH".toList, "INVERSION_RANGE_MAX".toList, "INVERSION_RANGE_MIN".toList, "MAX_WORKERS".toList, "NAME".toList,
   "OUTPUT_CREATION_DATE".toList, "PROCESSING_RANGE_MAX".toList, "PROCESSING_RANGE_MIN".toList, "PSITYPE".toList, "RES_FACTOR".toList,
   "RES_KM".toList, "REV".toList, "SILENT".toList, "TRIM_DLP".toList, "WTYPE".toList]

/-- A line: a text, and keywords between dollars with the texts that follow them. -/
def line (t : List Char) (l : List (List Char × List Char)) : List Char :=
  t ++ l.flatMap fun p => '$' :: p.1 ++ '$' :: p.2

/-- The same line with values in place of the keywords. -/
def filled (val : List Char → List Char) (t : List Char) (l : List (List Char × List Char)) : List Char :=
  t ++ l.flatMap fun p => val p.1 ++ p.2

/-- The character is in no keyword. -/
def other (c : Char) : Bool := names.all fun k => !k.contains c

/-- Known keywords; no dollar in the texts; between two keywords there is a character that is in no keyword. -/
def Fine : List (List Char × List Char) → Bool
  | [] => true
  | (k, t) :: l => names.contains k && !t.contains '$' && (l.isEmpty || t.any other) && Fine l

/-- The lines of the template with a keyword, pipeline/batch_parallel_CSVtoTAU_template-20260130a.py 9, 81, 82, 88-91, 113, 118-123, 125, 128,
182, 216, 228 and 319. -/
def template : List (List Char × List (List Char × List Char)) :=
  [("description = '".toList, [("DESCRIPTION".toList, "' # to make it easier to trace what this run was ".toList)]),
   ([], [("RES_FACTOR".toList, " # res_factor = 0.75 # so resolution agrees with PDS".toList)]),
   ("wtype = '".toList, [("WTYPE".toList, "' # 'kbmd20' # modify this only for testing of window functions".toList)]),
   ([], [("SILENT".toList, [])]), ("psitypes = ['".toList, [("PSITYPE".toList, "']".toList)]),
   (['\''], [("RES_FACTOR".toList, ['\''])]), ([], [("RES_KM".toList, " # res_km = value".toList)]),
   ("output_creation_date = '".toList, [("OUTPUT_CREATION_DATE".toList, "' # ex: '2025122*' # Date of DLP file".toList)]),
   ("rev = '".toList, [("REV".toList, ['\''])]), ("direc = '".toList, [("DIREC".toList, ['\''])]),
   ("band = '".toList, [("BAND".toList, ['\''])]), ("dsn = '".toList, [("DSN".toList, ['\''])]),
   ("name = '".toList, [("NAME".toList, ['\''])]), ([], [("DRHO_KM".toList, [])]),
   ([], [("RES_FACTOR".toList, " #line= line.replace('".toList), ("RES_FACTOR".toList, "','res_factor = '+str(res_factor))".toList)]),
   ("processing_range = [int('".toList, [("PROCESSING_RANGE_MIN".toList, "'),int('".toList), ("PROCESSING_RANGE_MAX".toList, "')]".toList)]),
   ("        inversion_range_orig = [int('".toList,
    [("INVERSION_RANGE_MIN".toList, "'),int('".toList), ("INVERSION_RANGE_MAX".toList, "')]".toList)]),
   ("        ".toList, [("TRIM_DLP".toList, " # trim_dlp = True or False".toList)]),
   ([], [("MAX_WORKERS".toList, " # max_workers = cpu_count()".toList)]),
   ("    ".toList, [("MAX_WORKERS".toList, " # max_workers = cpu_count()".toList)])]

end Spec
open Verif.Jobs.Spec (names line filled other Fine template)

theorem names_perm : ∀ k, k ∈ names ↔ k ∈ keywords.map Prod.snd := by
  have h1 : ∀ k ∈ names, k ∈ keywords.map Prod.snd := by decide +kernel
  have h2 : ∀ k ∈ keywords.map Prod.snd, k ∈ names := by decide +kernel
  exact fun k => ⟨h1 k, h2 k⟩

theorem no_dollar : ∀ k ∈ names, '$' ∉ k := by decide +kernel

theorem tests : ∀ k ∈ keywords, k.1 <+: mark k.2 := by decide +kernel

theorem other_not {c : Char} (h : other c = true) {k : List Char} (hk : k ∈ names) : c ∉ k := by
  have := List.all_eq_true.mp h k hk
  simpa using this

/-- Text without a dollar is copied. -/
theorem copy {K v s : List Char} : ∀ {t : List Char}, '$' ∉ t → replaceFrom (mark K) v 0 (t ++ s) = t ++ replaceFrom (mark K) v 0 s
  | [], _ => rfl
  | c :: t, h => by
    rw [List.mem_cons, not_or] at h
    rw [List.cons_append, replaceFrom, if_neg, copy h.2]
    · rfl
    · intro hc
      obtain ⟨x, hx⟩ := List.isPrefixOf_iff_prefix.mp hc
      rw [mark, List.cons_append] at hx
      exact h.1 (List.cons.inj hx).1

/-- A dollar after which the keyword does not follow is copied. -/
theorem copy_dollar {K v s : List Char} (h : ¬ K ++ ['$'] <+: s) :
    replaceFrom (mark K) v 0 ('$' :: s) = '$' :: replaceFrom (mark K) v 0 s := by
  rw [replaceFrom, if_neg]
  intro hc
  have := List.isPrefixOf_iff_prefix.mp hc
  rw [mark, List.cons_prefix_cons] at this
  exact h this.2

theorem prefix_eq : ∀ {K k r : List Char}, '$' ∉ K → '$' ∉ k → K ++ ['$'] <+: k ++ '$' :: r → K = k
  | [], [], _, _, _, _ => rfl
  | [], c :: k, r, _, hk, h => by
    rw [List.nil_append, List.cons_append, List.cons_prefix_cons] at h
    exact absurd (h.1 ▸ List.mem_cons_self) hk
  | c :: K, [], r, hK, _, h => by
    rw [List.nil_append, List.cons_append, List.cons_prefix_cons] at h
    exact absurd (h.1 ▸ List.mem_cons_self) hK
  | c :: K, d :: k, r, hK, hk, h => by
    rw [List.cons_append, List.cons_append, List.cons_prefix_cons] at h
    rw [h.1, prefix_eq (fun hc => hK (List.mem_cons_of_mem _ hc)) (fun hc => hk (List.mem_cons_of_mem _ hc)) h.2]

/-- The keywords for which `done` holds are replaced. -/
def part (done : List Char → Bool) (val : List Char → List Char) (l : List (List Char × List Char)) : List Char :=
  l.flatMap fun p => (if done p.1 then val p.1 else mark p.1) ++ p.2

theorem part_cons (done : List Char → Bool) (val : List Char → List Char) (k t : List Char) (l : List (List Char × List Char)) :
    part done val ((k, t) :: l) = (if done k then val k else mark k) ++ (t ++ part done val l) := by
  rw [part, List.flatMap_cons, List.append_assoc, part]

theorem fine_cons {k t : List Char} {l : List (List Char × List Char)} (h : Fine ((k, t) :: l)) :
    k ∈ names ∧ '$' ∉ t ∧ (l = [] ∨ ∃ c ∈ t, other c = true) ∧ Fine l := by
  simp only [Fine, Bool.and_eq_true, Bool.or_eq_true, List.contains_iff_mem, Bool.not_eq_true', List.isEmpty_iff, List.any_eq_true] at h
  obtain ⟨⟨⟨h1, h2⟩, h3⟩, h4⟩ := h
  exact ⟨h1, by simpa using h2, h3, h4⟩

theorem replace_part {val : List Char → List Char} (hv : ∀ k, '$' ∉ val k) {K : List Char} (hK : K ∈ names) (done : List Char → Bool) :
    ∀ {l : List (List Char × List Char)}, Fine l →
      replaceFrom (mark K) (val K) 0 (part done val l) = part (fun k => done k || decide (k = K)) val l
  | [], _ => rfl
  | (k, t) :: l, h => by
    obtain ⟨hk, ht, hs, hl⟩ := fine_cons h
    rw [part_cons, part_cons]
    have ih := replace_part hv hK done hl
    by_cases hd : done k = true
    · rw [if_pos hd, if_pos (by simp [hd]), copy (hv k), copy ht, ih]
    · rw [if_neg hd]
      by_cases hkK : k = K
      · subst hkK
        rw [if_pos (by simp), replace_head (by simp [mark]), copy ht, ih]
      · rw [if_neg (by simp [hd, hkK]), show mark k = '$' :: (k ++ ['$']) from rfl, List.cons_append, copy_dollar, List.append_assoc, List.singleton_append, copy (no_dollar k hk),
          copy_dollar, copy ht, ih]
        · simp
        · intro hc
          have hlen : t.length ≤ K.length := by
            by_contra hcon
            have h1 := List.prefix_of_prefix_length_le hc (List.prefix_append t (part done val l))
              (by rw [List.length_append, List.length_singleton]; omega)
            exact ht (h1.subset (by simp))
          rcases hs with rfl | ⟨c, hc1, hc2⟩
          · rw [part, List.flatMap_nil, List.append_nil] at hc
            exact ht (hc.subset (by simp))
          · have h1 : t <+: K ++ ['$'] := List.prefix_of_prefix_length_le (List.prefix_append t (part done val l)) hc
              (by rw [List.length_append]; omega)
            have h2 : t <+: K := List.prefix_of_prefix_length_le h1 (List.prefix_append K ['$']) hlen
            exact other_not hc2 hK (h2.subset hc1)
        · rw [List.append_assoc, List.singleton_append]
          exact fun hc => hkK (prefix_eq (no_dollar K hK) (no_dollar k hk) hc).symm

theorem fill_part {val : List Char → List Char} (hv : ∀ k, '$' ∉ val k) {t : List Char} (ht : '$' ∉ t) {l : List (List Char × List Char)}
    (hl : Fine l) : ∀ (ks : List (List Char × List Char)) (done : List Char → Bool), (∀ k ∈ ks, k.2 ∈ names ∧ k.1 <+: mark k.2) →
      ks.foldl (fillStep val) (t ++ part done val l) =
        t ++ part (fun k => done k || decide (k ∈ ks.map Prod.snd)) val l
  | [], done, _ => by simp
  | k :: ks, done, h => by
    have hk := h k List.mem_cons_self
    have e : fillStep val (t ++ part done val l) k = t ++ part (fun x => done x || decide (x = k.2)) val l := by
      rw [fillStep, ← replace_part hv hk.1 done hl, ← copy ht]
      split
      · rfl
      · rename_i hn
        rw [replace_none fun hc => hn (hk.2.isInfix.trans hc)]
    rw [List.foldl_cons, e, fill_part hv ht hl ks _ fun x hx => h x (List.mem_cons_of_mem _ hx)]
    congr 2
    funext x
    rw [Bool.or_assoc, List.map_cons]
    by_cases h1 : x = k.2
    · simp [h1]
    · have h2 : (x == k.2) = false := by simpa using h1
      simp [h1, h2]

/-- **C169.** In a line of the template each keyword is replaced by its value, and nothing else is changed. -/
theorem C169_line {val : List Char → List Char} (hv : ∀ k, '$' ∉ val k) {t : List Char} (ht : '$' ∉ t) {l : List (List Char × List Char)}
    (hl : Fine l) : fillLine val (line t l) = filled val t l := by
  have h := fill_part hv ht hl keywords (fun _ => false) fun k hk => ⟨(names_perm _).mpr (List.mem_map_of_mem hk), tests k hk⟩
  have e1 : line t l = t ++ part (fun _ => false) val l := by
    simp [line, part, mark]
  have : ∀ l, Fine l → part (fun k => false || decide (k ∈ keywords.map Prod.snd)) val l = l.flatMap fun p => val p.1 ++ p.2 := by
    intro l
    induction l with
    | nil => exact fun _ => rfl
    | cons p l ih =>
      obtain ⟨k, u⟩ := p
      intro hf
      obtain ⟨hk, -, -, hf'⟩ := fine_cons hf
      rw [part_cons, ih hf', if_pos (by simpa using (names_perm k).mp hk), List.flatMap_cons, List.append_assoc]
  rw [fillLine, e1, h, this l hl, filled]

/-- Two keywords in one line. -/
example : fillLine (fun k => if k = "PROCESSING_RANGE_MIN".toList then "60000".toList else "110000".toList)
    "processing_range = [int('$PROCESSING_RANGE_MIN$'),int('$PROCESSING_RANGE_MAX$')]".toList =
      "processing_range = [int('60000'),int('110000')]".toList := by decide +kernel

/-- **C169.** So no dollar is left. -/
theorem C169_left {val : List Char → List Char} (hv : ∀ k, '$' ∉ val k) {t : List Char} (ht : '$' ∉ t) {l : List (List Char × List Char)}
    (hl : Fine l) : '$' ∉ fillLine val (line t l) := by
  rw [C169_line hv ht hl, filled, List.mem_append, not_or]
  refine ⟨ht, ?_⟩
  rw [List.mem_flatMap]
  rintro ⟨⟨k, u⟩, hm, hc⟩
  have : ∀ l, Fine l → (k, u) ∈ l → '$' ∉ u := by
    intro l
    induction l with
    | nil => intro _ h; cases h
    | cons p l ih =>
      obtain ⟨k', u'⟩ := p
      intro hf h
      obtain ⟨-, h2, -, h4⟩ := fine_cons hf
      rcases List.mem_cons.mp h with h | h
      · cases h; exact h2
      · exact ih h4 h
  rcases List.mem_append.mp hc with h | h
  · exact hv k h
  · exact this l hl hm h

example : '$' ∉ fillLine (fun _ => "0.75".toList) (line [] [("RES_FACTOR".toList, " # ".toList)]) :=
  C169_left (fun _ => by decide +kernel) (by simp) (by decide +kernel)

/-- **C169.** Lines without a dollar are copied, and so is the first line of the template, whatever the values are. -/
theorem C169_kept (val : List Char → List Char) {s : List Char} (h : ∀ k ∈ names, ¬ '$' :: k <:+: s) : fillLine val s = s := by
  have : ∀ ks : List (List Char × List Char), (∀ k ∈ ks, k ∈ keywords) →
      ks.foldl (fillStep val) s = s := by
    intro ks
    induction ks with
    | nil => exact fun _ => rfl
    | cons k ks ih =>
      intro hk
      have e : fillStep val s k = s := by
        rw [fillStep]
        split
        · refine replace_none fun hc => ?_
          refine h k.2 ((names_perm _).mpr (List.mem_map_of_mem (hk k List.mem_cons_self))) (List.IsInfix.trans ?_ hc)
          exact (List.prefix_append ('$' :: k.2) ['$']).isInfix
        · rfl
      rw [List.foldl_cons, e, ih fun x hx => hk x (List.mem_cons_of_mem _ hx)]
  rw [fillLine]
  exact this keywords fun _ h => h

example (val : List Char → List Char) : fillLine val "# The $-delimited keywords in this template".toList = "# The $-delimited keywords in this template".toList :=
  C169_kept val (by decide +kernel)

theorem template_texts : ∀ p ∈ template, '$' ∉ p.1 := by decide +kernel

theorem template_fine : ∀ p ∈ template, Fine p.2 = true := by decide +kernel

attribute [local irreducible] template names keywords

/-- **C169.** Every line of the template that has a keyword is of this form, and is filled. -/
theorem C169_template {val : List Char → List Char} (hv : ∀ k, '$' ∉ val k) :
    fill val (template.map fun p => line p.1 p.2) = template.map fun p => filled val p.1 p.2 := by
  rw [fill, List.map_map]
  refine List.map_congr_left fun p hp => ?_
  exact C169_line hv (template_texts p hp) (template_fine p hp)

example : fill (fun _ => "0.75".toList) (template.map fun p => line p.1 p.2) = template.map fun p => filled (fun _ => "0.75".toList) p.1 p.2 :=
  C169_template fun _ => by decide +kernel

theorem zfill_inj {w a b : Nat} (hw : 1 ≤ w) (h : zfillInt w a = zfillInt w b) : a = b := by
  have ha := (zfill_padded hw a).2.1
  have hb := (zfill_padded hw b).2.1
  rw [← ha, h, hb]

/-- **C169.** There is one program for each job, in the order of the jobs, and no program is written over another one. -/
theorem C169_programs (root : List Char) (l : List Job) :
    (programs root l).map Prod.snd = l ∧ ((programs root l).map Prod.fst).Nodup := by
  constructor
  · rw [programs, List.map_map]
    exact List.zipIdx_map_fst ..
  · rw [programs, List.map_map, show (Prod.fst ∘ fun p : Job × Nat => (root ++ zfillInt 4 (p.2 : ℤ) ++ ".py".toList, p.1)) =
      (fun n : Nat => root ++ zfillInt 4 (n : ℤ) ++ ".py".toList) ∘ Prod.snd from rfl, ← List.map_map, List.zipIdx_map_snd]
    refine List.Nodup.map ?_ List.nodup_range'
    intro a b h
    exact zfill_inj (w := 4) (by norm_num) (List.append_cancel_left (List.append_cancel_right h))

example : (programs "r-".toList [⟨1, "Rev007".toList, 'I', "X43".toList⟩, ⟨1, "Rev007".toList, 'E', "X43".toList⟩]).map Prod.fst =
    ["r-0000.py".toList, "r-0001.py".toList] := by decide +kernel

end Verif.Jobs
