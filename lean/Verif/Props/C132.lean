import Verif.Model.Snr

/-!
# C132 Kernels by date
-/
namespace Verif.Thr
open Verif.PyHist

namespace Spec

/-- The set for an occultation by the number of its rev, as the names of the sets say. -/
def kernelsForRev (rev : Nat) : Kern :=
  if rev = 123 then .rev123 else if rev = 125 then .rev125 else if 133 ≤ rev then .rev133 else .base

/-- The set for a date, as the second half of the condition means it: the last set from day 169 of 2010 on. -/
def kernelsForDate (year doy : Int) : Kern :=
  if year = 2009 ∧ (doy = 359 ∨ doy = 360) then .rev123
  else if year = 2010 ∧ doy = 26 then .rev125
  else if year > 2010 ∨ (year = 2010 ∧ 169 ≤ doy) then .rev133
  else .base

/-- The occultations up to 2010 with number, year and day (tables/RSSActivities_all_rings_only.txt 2-39). -/
def events : List (Nat × Int × Int) :=
  [(7, 2005, 123), (7, 2005, 123), (8, 2005, 141), (8, 2005, 141), (9, 2005, 159), (10, 2005, 177), (10, 2005, 177), (11, 2005, 196),
   (12, 2005, 214), (12, 2005, 214), (13, 2005, 232), (14, 2005, 248), (28, 2006, 258), (28, 2006, 259), (44, 2007, 130), (46, 2007, 162),
   (53, 2007, 337), (54, 2007, 353), (56, 2008, 15), (57, 2008, 27), (58, 2008, 39), (60, 2008, 62), (63, 2008, 92), (64, 2008, 102),
   (67, 2008, 130), (79, 2008, 217), (81, 2008, 232), (82, 2008, 239), (84, 2008, 254), (89, 2008, 291), (123, 2009, 359), (123, 2009, 360),
   (125, 2010, 26), (125, 2010, 27), (133, 2010, 169), (133, 2010, 170), (137, 2010, 245), (137, 2010, 245)]

end Spec
open Spec

/-- **C132**: exactly on the days 1-168 of 2010 without day 26 the choice is not the one that is meant. -/
theorem C132_exact (year doy : Int) : kernelsOf year doy = kernelsForDate year doy ↔ ¬(year = 2010 ∧ doy < 169 ∧ doy ≠ 26) := by
  unfold kernelsOf kernelsForDate
  split_ifs <;> simp <;> omega

/-- **C132**, what is chosen for every date. -/
theorem C132_choice (year doy : Int) :
    (kernelsOf year doy = .base ↔ year < 2010 ∧ ¬(year = 2009 ∧ (doy = 359 ∨ doy = 360))) ∧
    (kernelsOf year doy = .rev123 ↔ year = 2009 ∧ (doy = 359 ∨ doy = 360)) ∧
    (kernelsOf year doy = .rev125 ↔ year = 2010 ∧ doy = 26) ∧
    (kernelsOf year doy = .rev133 ↔ 2010 ≤ year ∧ ¬(year = 2010 ∧ doy = 26)) := by
  unfold kernelsOf
  split_ifs <;> simp <;> omega

/-- **C132** for the events of the table up to 2010: all but one occultation get the set of their rev. -/
theorem C132_events_partial : ∀ e ∈ events, e ≠ (125, 2010, 27) → kernelsOf e.2.1 e.2.2 = kernelsForRev e.1 := by
  decide +kernel

/-- Every later occultation gets the last set. -/
theorem C132_later {year doy : Int} (h : 2010 < year) {rev : Nat} (hr : 133 ≤ rev) : kernelsOf year doy = kernelsForRev rev := by
  unfold kernelsOf kernelsForRev
  rw [if_neg (by omega), if_neg (by omega), if_pos (by omega), if_neg (by omega), if_neg (by omega), if_pos (by omega)]

/-- **C132** is false of the egress of rev 125: the same rev gets other kernels for its second half. -/
theorem C132_egress_false : (125, 2010, 27) ∈ events ∧ kernelsOf 2010 27 = .rev133 ∧ kernelsOf 2010 26 = .rev125 ∧ kernelsForRev 125 = .rev125 := by
  decide +kernel

/-- **C132** is false of the days of 2010 before rev 133. -/
theorem C132_date_false : kernelsOf 2010 100 = .rev133 ∧ kernelsForDate 2010 100 = .base := by decide

/-- The events are those of the code. -/
theorem C132_table : events.map (fun e => e.2) = (rowYears.zip rowDoys).take 38 ∧
    events.map (fun e => e.1) = (revNames.take 38).map fun s => (((s.toList.take 7).drop 4).foldl (fun n c => 10 * n + (c.toNat - 48)) 0) := by
  decide +kernel

/-! ### Examples -/

example : kernelsOf 2008 100 = kernelsForDate 2008 100 := (C132_exact 2008 100).2 (by omega)
example : kernelsOf 2013 18 = kernelsForRev 179 := C132_later (by omega) (by omega)

end Verif.Thr
