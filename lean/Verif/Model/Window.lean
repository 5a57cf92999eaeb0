import Verif.Model.Checks

/-!
# Processing range and window widths

Models src/tau/rss_ringoccs_tau_get_window_width.c and
src/tau/rss_ringoccs_tau_check_data_range.c.  All the allocations in these
functions are unchecked in the source; they are assumed to succeed here.
-/
namespace Verif

/-- `while (p(a[n])) n++;` started at the head of `l`, which is element number
`n` of the array. Running past the end is an out-of-bounds read. -/
def scanFrom (p : Dbl → Bool) : List Dbl → Nat → Res Nat
  | [], _ => .ub .oobRead
  | x :: xs, n => if p x then scanFrom p xs (n + 1) else .ok n

/-- `while (p(ptr[n])) n++;` starting at `n = s`. -/
def scanP (p : Dbl → Bool) (ptr : Option (List Dbl)) (s : Nat) : Res Nat :=
  match ptr with
  | none => .ub .nullDeref
  | some l => scanFrom p (l.drop s) s

/-- Outcome of one stage: go on with `(t, v)` or return from the function. -/
inductive Stage (α : Type)
  | go (a : α)
  | stop (t : TauD)

/-- src/tau/rss_ringoccs_tau_get_window_width.c 29-55: first index of the
processing range. -/
def gwwStart (t : TauD) : Res (Stage TauD) := do
  let r0 ← rdP (t.arr .rho) 0
  if t.range0.le r0 then .ok (.go { t with range0 := r0, start := 0 })
  else do
    let last ← subIdx t.arrSize 1
    let rl ← rdP (t.arr .rho) last
    if t.range0.gt rl then .ok (.stop (t.fail .getWindowWidth 35))
    else do
      let n ← scanP (fun r => r.lt t.range0) (t.arr .rho) 0
      let rn ← rdP (t.arr .rho) n
      .ok (.go { t with range0 := rn, start := n })

/-- src/tau/rss_ringoccs_tau_get_window_width.c 57-83: number of points. -/
def gwwEnd (t : TauD) : Res (Stage TauD) := do
  let last ← subIdx t.arrSize 1
  let rl ← rdP (t.arr .rho) last
  if t.range1.ge rl then
    .ok (.go { t with range1 := rl, nUsed := t.arrSize - t.start })
  else do
    let r0 ← rdP (t.arr .rho) 0
    if t.range1.lt r0 then .ok (.stop (t.fail .getWindowWidth 63))
    else do
      let n ← scanP (fun r => r.le t.range1) (t.arr .rho) t.start
      let rn ← rdP (t.arr .rho) n
      .ok (.go { t with range1 := rn, nUsed := n - t.start })

/-- Indices `i` with `p l[i]`, ascending, numbered from `k`: the result of
`tmpl_Where_Greater_Double`/`tmpl_Where_Lesser_Double` (libtmpl, assumed). -/
def whereIdx (p : Dbl → Bool) : List Dbl → Nat → List Nat
  | [], _ => []
  | x :: xs, k => if p x then k :: whereIdx p xs (k + 1) else whereIdx p xs (k + 1)

/-- One row of the loop 109-116: `(alpha[n], P_vals[n])`.
`rho_dot_kms_vals` is indexed with `n`, the others with `n + start`. -/
def bfacRow (N : Num Dbl Cpx) (L : Lib) (t : TauD) (n : Nat) : Res (Dbl × Dbl) := do
  let F ← rdP (t.arr .F) (n + t.start)
  let k ← rdP (t.arr .k) (n + t.start)
  let omega := N.mul L.speedOfLight k
  let a := N.mul omega t.sigma
  let rd ← rdP (t.arr .rhoDot) n
  let alpha := N.mul a (N.div (N.mul a (N.lit (1/2))) rd)
  let P := N.div t.res (N.mul (N.mul alpha F) F)
  .ok (alpha, P)

/-- The loop 109-116 for rows `n, n+1, ..., n+cnt-1`. -/
def bfacRows (N : Num Dbl Cpx) (L : Lib) (t : TauD) (n : Nat) : Nat → Res (List (Dbl × Dbl))
  | 0 => .ok []
  | cnt + 1 => do
    let r ← bfacRow N L t n
    let rs ← bfacRows N L t (n + 1) cnt
    .ok (r :: rs)

/-- The loop 122-125: `j` runs over the positions of `Prange_Index`, the value
stored for point `Prange_Index[j]` uses `P_vals[Prange_Index[j]]` but
`alpha[j]`. -/
def bfacStore (N : Num Dbl Cpx) (t : TauD) (rows : List (Dbl × Dbl)) :
    List Nat → Nat → List Dbl → Res (List Dbl)
  | [], _, w => .ok w
  | i :: is, j, w => do
    let P ← rd rows i
    let al ← rd rows j
    let v := N.div (N.mul t.normeq (N.resolutionInverse P.2)) al.1
    let w ← wr w (t.start + i) v
    bfacStore N t rows is (j + 1) w

/-- src/tau/rss_ringoccs_tau_get_window_width.c 103-131 (b-factor). -/
def widthsBfac (N : Num Dbl Cpx) (L : Lib) (t : TauD) (w : List Dbl) : Res (List Dbl) := do
  let rows ← bfacRows N L t 0 t.nUsed
  let idx := whereIdx (fun p => p.gt (.fin 1)) (rows.map Prod.snd) 0
  bfacStore N t rows idx 0 w

/-- src/tau/rss_ringoccs_tau_get_window_width.c 132-141 (no b-factor), rows
`n .. n+cnt-1`. -/
def widthsPlain (N : Num Dbl Cpx) (t : TauD) (wfac : Dbl) (n : Nat) : Nat → List Dbl → Res (List Dbl)
  | 0, w => .ok w
  | cnt + 1, w => do
    let F ← rdP (t.arr .F) (n + t.start)
    let w ← wr w (n + t.start) (N.mul (N.mul (N.mul (N.lit 2) F) F) wfac)
    widthsPlain N t wfac (n + 1) cnt w

/-- The loops 145-150 and 181-186: `rho` minus or plus `w/2` over the processing range. -/
def rhoLegal (N : Num Dbl Cpx) (op : Dbl → Dbl → Dbl) (t : TauD) (n : Nat) : Nat → Res (List Dbl)
  | 0 => .ok []
  | cnt + 1 => do
    let r ← rdP (t.arr .rho) (t.start + n)
    let w ← rdP (t.arr .w) (t.start + n)
    let rest ← rhoLegal N op t (n + 1) cnt
    .ok (op r (N.mul (N.lit (1/2)) w) :: rest)

/-- src/tau/rss_ringoccs_tau_get_window_width.c 143-179: cut on the left. -/
def cutLeft (N : Num Dbl Cpx) (t : TauD) : Res (Stage TauD) := do
  let leg ← rhoLegal N N.sub t 0 t.nUsed
  let r0 ← rdP (t.arr .rho) 0
  match whereIdx (fun x => x.gt r0) leg 0 with
  | [] => .ok (.stop (t.fail .getWindowWidth 157))
  | i :: _ =>
    if i > 0 then .ok (.go { t with start := t.start + i, nUsed := t.nUsed - i })
    else .ok (.go t)

/-- src/tau/rss_ringoccs_tau_get_window_width.c 181-210: cut on the right. -/
def cutRight (N : Num Dbl Cpx) (t : TauD) : Res (Stage TauD) := do
  let leg ← rhoLegal N N.add t 0 t.nUsed
  let last ← subIdx t.arrSize 1
  let rl ← rdP (t.arr .rho) last
  let idx := whereIdx (fun x => x.lt rl) leg 0
  match idx.getLast? with
  | none => .ok (.stop (t.fail .getWindowWidth 195))
  | some i =>
    if i < t.nUsed then .ok (.go { t with nUsed := idx.length - 1 })
    else .ok (.go t)

/-- Computes the window widths into `w`, lines 98-141 (`calloc` gives zeros). -/
def gwwWidths (N : Num Dbl Cpx) (L : Lib) (t : TauD) : Res TauD := do
  let w0 := List.replicate t.arrSize (Dbl.fin 0)
  let w ← (if t.bfac then widthsBfac N L t w0
    else widthsPlain N t (N.div t.normeq t.res) 0 t.nUsed w0 : Res (List Dbl))
  .ok (t.setArr .w (some w))

/-- src/tau/rss_ringoccs_tau_get_window_width.c 11-236. -/
def getWindowWidth (N : Num Dbl Cpx) (L : Lib) : TauD → Res TauD := guarded fun t => do
  match ← gwwStart t with
  | .stop t => .ok t
  | .go t =>
    match ← gwwEnd t with
    | .stop t => .ok t
    | .go t =>
      if (t.arr .w).isSome then .ok (t.fail .getWindowWidth 85)
      else do
        let t ← gwwWidths N L t
        match ← cutLeft N t with
        | .stop t => .ok t
        | .go t =>
          match ← cutRight N t with
          | .stop t => .ok t
          | .go t =>
            if t.start > t.arrSize then .ok (t.fail .getWindowWidth 215)
            else if t.start + t.nUsed > t.arrSize then .ok (t.fail .getWindowWidth 226)
            else .ok t

/-- One pass of the loop src/tau/rss_ringoccs_tau_check_data_range.c 148-189 over
`n, ..., n+cnt-1`; returns the line of the violated check, if any. -/
def dataRangeLoop (N : Num Dbl Cpx) (t : TauD) (rcpr : Dbl) (n : Nat) : Nat → Res (Option Nat)
  | 0 => .ok none
  | cnt + 1 => do
    let w ← rdP (t.arr .w) n
    let nw ← (N.mul w rcpr).toSize
    if n < nw then .ok (some 158)
    else if n + nw > t.arrSize then .ok (some 177)
    else dataRangeLoop N t rcpr (n + 1) cnt

/-- src/tau/rss_ringoccs_tau_check_data_range.c 89-191. -/
def checkDataRange (N : Num Dbl Cpx) : TauD → Res TauD := guarded fun t =>
  if (t.arr .w).isNone then .ok (t.fail .checkDataRange 113)
  else if t.dx.le (.fin 0) then .ok (t.fail .checkDataRange 126)
  else do
    match ← dataRangeLoop N t (N.div (N.lit (1/2)) t.dx) t.start t.nUsed with
    | some line => .ok (t.fail .checkDataRange line)
    | none => .ok t

end Verif
