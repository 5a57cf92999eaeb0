import Mathlib.Algebra.Order.Floor.Ring
import Mathlib.Data.Rat.Floor

/-!
# The pages of the summary

Simplifications: exact numbers; the drawing itself is left out.
-/
namespace Verif.Summary

/-- The limits of one panel, in 1000 km. -/
structure Panel where
  lo : ℚ
  hi : ℚ
  deriving DecidableEq, Repr

/-- The rows of one page, with `rho_min` at the end: rss_ringoccs/tools/create_summary_doc_v5.py 1149-1163 and 1564-1622, where a row ends at
`rho_min + kkm_per_row`. -/
def rows (w : ℚ) : Nat → ℚ → List Panel × ℚ
  | 0, lo => ([], lo)
  | n + 1, lo => (⟨lo, lo + w⟩ :: (rows w n (lo + w)).1, (rows w n (lo + w)).2)

/-- The pages: rss_ringoccs/tools/create_summary_doc_v5.py 1145-1166 and 1562-1626. -/
def pages (nrow : Nat) (w : ℚ) : Nat → ℚ → List (List Panel)
  | 0, _ => []
  | n + 1, lo => (rows w nrow lo).1 :: pages nrow w n (rows w nrow lo).2

/-- `max([1,np.ceil((rho_max-rho_min)/per_page).astype(int)])`. -/
def npages (lo hi perPage : ℚ) : Nat := (max 1 ⌈(hi - lo) / perPage⌉).toNat

/-- rss_ringoccs/tools/create_summary_doc_v5.py 1125-1167 (`plot_tau_tau_file`); the same in 1055-1097 and in create_summary_doc.py 754-796
(`plot_tau`).  `none` is an IndexError. -/
def tauPages (rho : List ℚ) : Option (List (List Panel)) :=
  match rho.head?, rho.getLast? with
  | some a, some b => some (pages 4 1 (npages (a / 1000) (b / 1000) (4 * 1)) (a / 1000))
  | _, _ => none

/-- rss_ringoccs/tools/create_summary_doc_v5.py 1545-1627 (`plot_tau_zoom_tau_file_satres`); the same in 1271-1321, 1195-1245 and in
create_summary_doc.py 824-874.  `none` is a ValueError. -/
def zoomPages (rho : List ℚ) : Option (List (List Panel)) :=
  match rho.min?, rho.max? with
  | some a, some b => some (pages 4 (1 / 5) (npages (a / 1000) (b / 1000) (4 * (1 / 5))) (a / 1000))
  | _, _ => none

/-- rss_ringoccs/tools/create_summary_doc_v5.py 1411-1434 (`plot_phase_tau_file`); the same in 1352-1375 and in create_summary_doc.py 905-928. -/
def phasePanels : List Panel := [⟨72, 90⟩, ⟨90, 108⟩, ⟨108, 126⟩, ⟨126, 144⟩]

/-- What a page shows, or what the caption of a figure says. -/
inductive Kind where
  | bullseye
  | earth
  | pole
  | geo
  | cal
  | overview
  | tau
  | zoom
  | phase
  deriving DecidableEq, Repr

/-- rss_ringoccs/tools/create_summary_doc_v5.py 1473-1493: each function adds one page, or as many as it returns.  The order is the same in
create_summary_doc.py 956-965. -/
def pdf (nt nz : Nat) : List Kind :=
  [.bullseye, .earth, .pole, .geo, .cal, .overview] ++ List.replicate nt .tau ++ List.replicate nz .zoom ++ [.phase]

/-- rss_ringoccs/tools/sys_tools.py 119-458: the figures of the document, with the page that they take and what their caption is about. -/
def figures (nt nz : Nat) : List (Nat × Kind) :=
  [(1, .bullseye), (2, .earth), (3, .pole), (4, .geo), (5, .cal), (6, .overview), (7, .overview)]
    ++ (List.range' 7 nt).map (fun p => (p, .tau)) ++ (List.range' (7 + nt) nz).map (fun p => (p, .zoom)) ++ [(7 + nt + nz, .phase)]

/-- rss_ringoccs/tools/create_summary_doc_v5.py 1473-1497 and create_summary_doc.py 956-969: the pages and the figures, for a profile. -/
def summary (rho : List ℚ) : Option (List Kind × List (Nat × Kind)) :=
  match tauPages rho, zoomPages rho with
  | some t, some z => some (pdf t.length z.length, figures t.length z.length)
  | _, _ => none

end Verif.Summary
