import Verif.Model.Heap

/-!
# Heap level of the CSV tools: who owns which array

The contents of the arrays are the subject of `Model/Csv.lean` and `Model/CsvData.lean`; here blocks have no contents.
Every call of an allocation function is numbered, and an arbitrary function says which calls succeed.
-/
namespace Verif

/-- The pointer members of the structures of include/rss_ringoccs_csv_tools.h 42-160 (equal names are one constructor). -/
inductive CsvMem
  | tOet | tRet | tSet | rho | rhoCorrPole | rhoCorrTiming | phiRl | phiOra | phi | pNorm | rawTau | phase | rawThreshold
  | B | D | rhoDot | phiRlDot | F | RImp | rx | ry | rz | vx | vy | vz | obsLat | history
  | fSkyPred | fSkyResid | pFree | power | tauVals | tauThreshold | fSky | tauPhase | tauPower
  deriving DecidableEq, Repr

/-- The heap and the number of allocation calls so far. (Vocabulary of the model.) -/
structure Mem where
  heap : Heap Unit
  calls : Nat

/-- `malloc`, and the one allocation inside `tmpl_String_Duplicate`. -/
def Mem.malloc (A : Nat → Bool) (m : Mem) : Option Nat × Mem :=
  if A m.calls then (some m.heap.next, ⟨(m.heap.alloc ()).2, m.calls + 1⟩) else (none, ⟨m.heap, m.calls + 1⟩)

/-- `free`. -/
def Mem.free (m : Mem) (p : Option Nat) : Res Mem := do
  let h ← m.heap.free p
  .ok ⟨h, m.calls⟩

/-- A `GeoCSV`, `CalCSV`, `DLPCSV`, `TauCSV` or `UranusDLPCSV` object at address `addr`.  `msg` is the error message if it
is on the heap (only `UranusDLPCSV`; the others point to literals). -/
structure CObj where
  addr : Nat
  ptr : CsvMem → Option Nat
  n : Nat
  err : Bool
  msg : Option Nat

/-- What the file is like: it can be opened, the number of columns is right, number of lines. -/
structure FileOut where
  opens : Bool
  cols : Bool
  rows : Nat

/-- The lists of one file format: members in the order of allocation and of release. -/
structure CsvFmt where
  allocs : List CsvMem
  frees : List CsvMem
  heapMsg : Bool

/-- src/csv_tools/rss_ringoccs_geo_csv_malloc.c 102-124, rss_ringoccs_geo_csv_destroy_members.c 41-60. -/
def geoFmt (dep : Bool) : CsvFmt where
  allocs := [.tOet, .tRet, .tSet, .rho, .phiRl, .phiOra, .B, .D, .rhoDot, .phiRlDot, .F, .RImp, .rx, .ry, .rz, .vx, .vy,
    .vz] ++ if dep then [] else [.obsLat]
  frees := [.tOet, .tRet, .tSet, .rho, .phiRl, .phiOra, .B, .D, .rhoDot, .phiRlDot, .F, .RImp, .rx, .ry, .rz, .vx, .vy,
    .vz, .obsLat, .history]
  heapMsg := false

/-- src/csv_tools/rss_ringoccs_cal_csv_malloc.c 103-106, rss_ringoccs_cal_csv_destroy_members.c 41-45. -/
def calFmt : CsvFmt where
  allocs := [.tOet, .fSkyPred, .fSkyResid, .pFree]
  frees := [.tOet, .fSkyPred, .fSkyResid, .pFree, .history]
  heapMsg := false

/-- src/csv_tools/rss_ringoccs_dlp_csv_malloc.c 103-119, rss_ringoccs_dlp_csv_destroy_members.c 41-53. -/
def dlpFmt (dep : Bool) : CsvFmt where
  allocs := [.tOet, .tRet, .tSet, .rho, .rhoCorrPole, .rhoCorrTiming, .phiRl, .phiOra, .B, .rawTau, .phase,
    .rawThreshold] ++ if dep then [] else [.pNorm]
  frees := [.rho, .rhoCorrPole, .rhoCorrTiming, .phiRl, .phiOra, .pNorm, .rawTau, .phase, .rawThreshold, .tOet, .tRet,
    .tSet, .B]
  heapMsg := false

/-- src/csv_tools/rss_ringoccs_tau_csv_malloc.c 101-119, rss_ringoccs_tau_csv_destroy_members.c 49-61. -/
def tauFmt (dep : Bool) : CsvFmt where
  allocs := [.rho, .rhoCorrPole, .rhoCorrTiming, .phiRl, .phiOra, .tauVals, .phase, .tauThreshold, .tOet, .tRet, .tSet,
    .B] ++ if dep then [] else [.power]
  frees := [.rho, .rhoCorrPole, .rhoCorrTiming, .phiRl, .phiOra, .power, .tauVals, .phase, .tauThreshold, .tOet, .tRet,
    .tSet, .B]
  heapMsg := false

/-- src/csv_tools/rss_ringoccs_uranus_dlp_csv_malloc.c 106-122, rss_ringoccs_uranus_dlp_csv_destroy_members.c 49-65. -/
def uranusDlpFmt : CsvFmt where
  allocs := [.rho, .rhoCorrPole, .rhoCorrTiming, .phiRl, .phi, .pNorm, .rawTau, .phase, .rawThreshold, .tOet, .tRet,
    .tSet, .B, .rhoDot, .F, .D, .fSky]
  frees := [.rho, .rhoCorrPole, .rhoCorrTiming, .phiRl, .phi, .pNorm, .rawTau, .phase, .rawThreshold, .tOet, .tRet,
    .tSet, .B, .rhoDot, .F, .D, .fSky]
  heapMsg := true

/-- Set one pointer member. (Vocabulary.) -/
def setMem (p : CsvMem → Option Nat) (f : CsvMem) (v : Option Nat) : CsvMem → Option Nat :=
  fun g => if g = f then v else p g

/-- `TMPL_FREE(obj->f)` for the members of a list (`if (p) {free(p); p = NULL;}`): the `*_destroy_members.c` files cited
above. Every access goes through the object, which must be alive. -/
def freeMems (addr : Nat) : List CsvMem → Mem × (CsvMem → Option Nat) → Res (Mem × (CsvMem → Option Nat))
  | [], s => .ok s
  | f :: fs, (m, p) => do
    let _ ← m.heap.get (some addr)
    let m ← m.free (p f)
    freeMems addr fs (m, setMem p f none)

/-- The error message of a sub-object: a literal, or a copy (UranusDLPCSV). -/
def objMsg (A : Nat → Bool) (heapMsg : Bool) (m : Mem) : Option Nat × Mem :=
  if heapMsg then m.malloc A else (none, m)

/-- `MALLOC_GEO_VAR` and its relatives: src/csv_tools/rss_ringoccs_geo_csv_malloc.c 43-58 (also cal 44-59, dlp 43-59, tau
43-56, uranus_dlp 44-59).  The failing pointer is stored, the message set, all members destroyed. -/
def mallocMems (A : Nat → Bool) (f : CsvFmt) : List CsvMem → Mem → CObj → Res (Mem × CObj)
  | [], m, o => .ok (m, o)
  | v :: vs, m, o => do
    let _ ← m.heap.get (some o.addr)
    match m.malloc A with
    | (some p, m) => mallocMems A f vs m { o with ptr := setMem o.ptr v (some p) }
    | (none, m) => do
      let r := objMsg A f.heapMsg m
      let q ← freeMems o.addr f.frees (r.2, setMem o.ptr v none)
      .ok (q.1, { o with ptr := q.2, err := true, msg := r.1 })

/-- The `*_Extract` functions: src/csv_tools/rss_ringoccs_geo_csv_extract.c 39-93, rss_ringoccs_cal_csv_extract.c 40-90,
rss_ringoccs_dlp_csv_extract.c 39-93, rss_ringoccs_tau_csv_extract.c 38-92,
rss_ringoccs_uranus_dlp_csv_extract.c 40-94 (with the `*_malloc.c` file of each). Simplification: reading the rows has no
effect on ownership and no undefined behaviour (for the latter see C42). -/
def extractObj (A : Nat → Bool) (f : CsvFmt) (file : FileOut) (m : Mem) : Res (Mem × Option CObj) :=
  match m.malloc A with
  | (none, m) => .ok (m, none)
  | (some a, m) =>
    let o : CObj := ⟨a, fun _ => none, 0, false, none⟩
    let fail (m : Mem) (o : CObj) : Res (Mem × Option CObj) :=
      let r := objMsg A f.heapMsg m
      .ok (r.2, some { o with err := true, msg := r.1 })
    if !file.opens then fail m o
    else if !file.cols then fail m o
    else if file.rows = 0 then fail m o
    else do
      let r ← mallocMems A f f.allocs m { o with n := file.rows }
      .ok (r.1, some r.2)

/-- The `*_Destroy` functions: src/csv_tools/rss_ringoccs_geo_csv_destroy.c 43-68, rss_ringoccs_cal_csv_destroy.c 43-68,
rss_ringoccs_dlp_csv_destroy.c 43-69, rss_ringoccs_tau_csv_destroy.c 34-57,
rss_ringoccs_uranus_dlp_csv_destroy.c 34-68. The caller's pointer is NULL afterwards. -/
def destroyObj (f : CsvFmt) (o : Option CObj) (m : Mem) : Res Mem :=
  match o with
  | none => .ok m
  | some o => do
    let r ← freeMems o.addr f.frees (m, o.ptr)
    let m ← (if f.heapMsg then r.1.free o.msg else .ok r.1 : Res Mem)
    m.free (some o.addr)

/-- A `CSVData` or `UranusCSVData` object with everything that it points to. -/
structure CsvSt where
  mem : Mem
  self : Nat
  ptr : CsvMem → Option Nat
  geo : Option CObj
  cal : Option CObj
  dlp : Option CObj
  tau : Option CObj
  n : Nat
  err : Bool
  msg : Option Nat

/-- The two missions: Cassini (with or without the deprecated formats) and Voyager at Uranus. -/
inductive CsvKind
  | cassini (dep : Bool)
  | uranus
  deriving DecidableEq, Repr

/-- Formats of the files. -/
def CsvKind.geo : CsvKind → CsvFmt
  | .cassini d => geoFmt d
  | .uranus => geoFmt false

/-- Formats of the files. -/
def CsvKind.dlp : CsvKind → CsvFmt
  | .cassini d => dlpFmt d
  | .uranus => uranusDlpFmt

/-- Formats of the files. -/
def CsvKind.tau : CsvKind → CsvFmt
  | .cassini d => tauFmt d
  | .uranus => tauFmt false

/-- src/csv_tools/rss_ringoccs_csv_data_destroy_members.c 49-70, the same list in
rss_ringoccs_uranus_csv_data_destroy_members.c 49-70. -/
def csvFrees : List CsvMem :=
  [.B, .D, .fSky, .pNorm, .rawTau, .phase, .phi, .phiRl, .rawThreshold, .rhoCorrPole, .rhoCorrTiming, .rhoDot, .rho, .rx,
   .ry, .rz, .tOet, .tRet, .tSet, .tauPhase, .tauPower, .tauVals]

/-- Pairs (member of csv, member of dlp): src/csv_tools/rss_ringoccs_csv_data_steal_dlp_data.c 76-93,
rss_ringoccs_uranus_csv_data_steal_dlp_data.c 73-95. -/
def CsvKind.steal : CsvKind → List (CsvMem × CsvMem)
  | .cassini d => [(.rho, .rho), (.rawTau, .rawTau), (.tRet, .tRet), (.tSet, .tSet), (.tOet, .tOet),
      (.rhoCorrPole, .rhoCorrPole), (.rhoCorrTiming, .rhoCorrTiming), (.rawThreshold, .rawThreshold), (.phase, .phase),
      (.phi, .phiOra), (.B, .B), (.phiRl, .phiRl)] ++ if d then [] else [(.pNorm, .pNorm)]
  | .uranus => [(.rho, .rho), (.rawTau, .rawTau), (.tRet, .tRet), (.tSet, .tSet), (.tOet, .tOet),
      (.rhoCorrPole, .rhoCorrPole), (.rhoCorrTiming, .rhoCorrTiming), (.rawThreshold, .rawThreshold), (.phase, .phase),
      (.phi, .phi), (.B, .B), (.phiRl, .phiRl), (.pNorm, .pNorm), (.rhoDot, .rhoDot), (.D, .D), (.fSky, .fSky)]

/-- src/csv_tools/rss_ringoccs_csv_data_malloc.c 49-62, rss_ringoccs_uranus_csv_data_malloc.c 49-59. -/
def CsvKind.mallocs (M : CsvKind) (tau : Bool) : List CsvMem :=
  (match M with
    | .cassini _ => [.D, .fSky, .rhoDot, .rx, .ry, .rz]
    | .uranus => [.rx, .ry, .rz]) ++ if tau then [.tauPhase, .tauPower, .tauVals] else []

/-- src/csv_tools/rss_ringoccs_csv_data_destroy_members.c 42-77, rss_ringoccs_uranus_csv_data_destroy_members.c 42-76
(there is no calibration there: `cal` is always NULL). -/
def csvDestroyMembers (M : CsvKind) (s : CsvSt) : Res CsvSt := do
  let r ← freeMems s.self csvFrees (s.mem, s.ptr)
  let m ← destroyObj M.geo s.geo r.1
  let m ← destroyObj calFmt s.cal m
  let m ← destroyObj M.dlp s.dlp m
  let m ← destroyObj M.tau s.tau m
  .ok { s with
    mem := m
    ptr := r.2
    geo := none
    cal := none
    dlp := none
    tau := none }

/-- `csv->error_occurred = tmpl_True; csv->error_message = tmpl_String_Duplicate(...)`. -/
def CsvSt.fail (A : Nat → Bool) (s : CsvSt) : CsvSt :=
  let r := s.mem.malloc A
  { s with
    mem := r.2
    err := true
    msg := r.1 }

/-- The four `Extract_*` functions: src/csv_tools/rss_ringoccs_csv_data_extract_geo.c 13-112, rss_ringoccs_csv_data_extract_cal.c
13-112, rss_ringoccs_csv_data_extract_dlp.c 13-116, rss_ringoccs_csv_data_extract_tau.c 13-112 and the files
`rss_ringoccs_uranus_csv_data_extract_*.c`; `put` stores the object in its member. -/
def extractStep (A : Nat → Bool) (M : CsvKind) (f : CsvFmt) (put : CsvSt → Option CObj → CsvSt) (file : FileOut)
    (s : CsvSt) : Res CsvSt :=
  if s.err then .ok s
  else do
    let r ← extractObj A f file s.mem
    let s := put { s with mem := r.1 } r.2
    match r.2 with
    | none => .ok (s.fail A)
    | some o =>
      if o.err ∨ o.n = 0 then csvDestroyMembers M (s.fail A)
      else .ok s

/-- src/csv_tools/rss_ringoccs_csv_data_steal_dlp_data.c 16-126 (lines 96-111 for the deprecated format),
rss_ringoccs_uranus_csv_data_steal_dlp_data.c 16-96. -/
def stealStep (A : Nat → Bool) (M : CsvKind) (s : CsvSt) : Res CsvSt :=
  if s.err then .ok s
  else match s.dlp with
    | none => .ok (s.fail A)
    | some o =>
      if o.err then .ok (s.fail A)
      else
        let s := { s with ptr := M.steal.foldl (fun p x => setMem p x.1 (o.ptr x.2)) s.ptr }
        if M = .cassini true then
          match s.mem.malloc A with
          | (some p, m) => .ok { s with
              mem := m
              ptr := setMem s.ptr .pNorm (some p) }
          | (none, m) => .ok ({ s with
              mem := m
              ptr := setMem s.ptr .pNorm none }.fail A)
        else .ok s

/-- `MALLOC_CSV_VAR` for a list: src/csv_tools/rss_ringoccs_csv_data_malloc.c 12-25,
rss_ringoccs_uranus_csv_data_malloc.c 12-25. -/
def csvMallocs (A : Nat → Bool) (M : CsvKind) : List CsvMem → CsvSt → Res CsvSt
  | [], s => .ok s
  | v :: vs, s => do
    let _ ← s.mem.heap.get (some s.self)
    match s.mem.malloc A with
    | (some p, m) => csvMallocs A M vs { s with
        mem := m
        ptr := setMem s.ptr v (some p) }
    | (none, m) => csvDestroyMembers M ({ s with
        mem := m
        ptr := setMem s.ptr v none }.fail A)

/-- src/csv_tools/rss_ringoccs_csv_data_malloc.c 27-63, rss_ringoccs_uranus_csv_data_malloc.c 27-60. -/
def mallocStep (A : Nat → Bool) (M : CsvKind) (s : CsvSt) : Res CsvSt :=
  if s.err then .ok s
  else if s.n = 0 then .ok (s.fail A)
  else csvMallocs A M (M.mallocs s.tau.isSome) s

/-- The chord check and the interpolations: src/csv_tools/rss_ringoccs_csv_data_check_chord_occ.c 88-114,
rss_ringoccs_csv_data_interpolate_geo.c 65-75 and the files of Uranus.  They own nothing; a failure (`bad`) sets the message. The other
error exits need missing objects, which cannot happen without an earlier error. -/
def checkStep (A : Nat → Bool) (bad : Bool) (s : CsvSt) : CsvSt :=
  if s.err then s else if bad then s.fail A else s

/-- The end of `Extract`: src/csv_tools/rss_ringoccs_csv_data_extract.c 80-84,
rss_ringoccs_uranus_csv_data_extract.c 77-84. -/
def finishStep (M : CsvKind) (s : CsvSt) : Res CsvSt := do
  let m ← destroyObj M.geo s.geo s.mem
  let m ← destroyObj calFmt s.cal m
  let m ← destroyObj M.tau s.tau m
  let m ← (match M with
    | .cassini _ => .ok m
    | .uranus => match s.dlp with
      | none => .ub .nullDeref
      | some o => do
        let _ ← m.heap.get (some o.addr)
        m.free (o.ptr .F) : Res Mem)
  let m ← m.free (s.dlp.map (·.addr))
  .ok { s with
    mem := m
    geo := none
    cal := none
    tau := none
    dlp := none }

/-- Everything that the outside world contributes: which allocations succeed, the files (`tau` may be absent), whether the
chord check and the interpolation of the geometry fail. -/
structure CsvWorld where
  A : Nat → Bool
  geo : FileOut
  cal : FileOut
  dlp : FileOut
  tau : Option FileOut
  chord : Bool
  interp : Bool

/-- src/csv_tools/rss_ringoccs_csv_data_extract.c 38-86, rss_ringoccs_uranus_csv_data_extract.c 38-87. The result is the
memory, and the object unless `malloc` failed. -/
def ownExtract (M : CsvKind) (W : CsvWorld) (m : Mem) : Res (Mem ⊕ CsvSt) :=
  match m.malloc W.A with
  | (none, m) => .ok (.inl m)
  | (some a, m) => do
    let s : CsvSt := ⟨m, a, fun _ => none, none, none, none, none, 0, false, none⟩
    let s ← extractStep W.A M M.geo (fun s o => { s with geo := o }) W.geo s
    let s ← (if M = .uranus then .ok s
      else extractStep W.A M calFmt (fun s o => { s with cal := o }) W.cal s : Res CsvSt)
    let s ← extractStep W.A M M.dlp (fun s o => { s with
      dlp := o
      n := (o.map (·.n)).getD 0 }) W.dlp s
    let s ← (match W.tau with
      | none => .ok s
      | some f => extractStep W.A M M.tau (fun s o => { s with tau := o }) f s : Res CsvSt)
    let s ← stealStep W.A M s
    let s ← mallocStep W.A M s
    let s := checkStep W.A W.chord s
    let s := checkStep W.A W.interp s
    let s ← finishStep M s
    .ok (.inr s)

/-- src/csv_tools/rss_ringoccs_csv_data_destroy.c 34-68, rss_ringoccs_uranus_csv_data_destroy.c 34-68. -/
def ownDestroy (M : CsvKind) (s : CsvSt) : Res Mem := do
  let s ← csvDestroyMembers M s
  let m ← s.mem.free s.msg
  m.free (some s.self)

end Verif
