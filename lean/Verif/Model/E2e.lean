import Verif.Model.PyImport

/-!
# The reconstruction of one recording in the batch programs

What the programs do with the profiles of ingress and egress after they have been made:
which names and attributes they read and which arguments they pass.
-/

namespace Verif.E2e
open Verif.PyImp

/-- The two halves of an occultation. -/
inductive Dir where
  | ing
  | egr
deriving DecidableEq, Repr

/-- The steps with one profile.  `name` reads a name of the program, `attr` reads
`rss.a.b`, `recon` calls `DiffractionCorrection` with these keywords, `write` writes the
files of the reconstruction and `doc` calls the function that plots the summary. -/
inductive Op where
  | name (x : String)
  | attr (parts : List String)
  | recon (kwds : List String)
  | write
  | doc
deriving DecidableEq, Repr

/-- The keywords that `DiffractionCorrection` knows.
`rss_ringoccs/crssringoccs/diffraction_correction/crssringoccs_diffraction_correction_init.c`
lines 58-74. -/
def kwlist : List String :=
  ["dlp", "resolution", "rng", "wtype", "use_fwd", "use_norm", "verbose", "bfac", "sigma",
   "psitype", "resolution_factor", "eccentricity", "periapse", "perturb"]

/-- A program: its file, those of the names read by the steps that it binds, and the steps
for each half; a step marked `true` is under `if write_file`. -/
structure Prog where
  file : String
  bound : List String
  ops : Dir → List (Bool × Op)

/-- What has been done for a recording. -/
structure Done where
  recon : List Dir := []
  written : List Dir := []
  docs : List Dir := []
deriving DecidableEq, Repr

/-- One step; `none` is an exception (`NameError`, `AttributeError`, `TypeError`).
Simplification: the computations themselves succeed. -/
def op (s : St) (p : Prog) (d : Dir) (x : Done) : Op → Option Done
  | .name n => if p.bound.contains n then some x else none
  | .attr c => if (chain s (.mod 0) c).isSome then some x else none
  | .recon k =>
    if k.all (kwlist.contains ·) then some { x with recon := x.recon ++ [d] } else none
  | .write => some { x with written := x.written ++ [d] }
  | .doc => some { x with docs := x.docs ++ [d] }

/-- The steps one after another: what has been done, and whether they got to the end. -/
def ops (s : St) (p : Prog) (wf : Bool) (d : Dir) : List (Bool × Op) → Done → Done × Bool
  | [], x => (x, true)
  | (c, o) :: l, x =>
    if c && !wf then ops s p wf d l x
    else match op s p d x o with
      | none => (x, false)
      | some x => ops s p wf d l x

/-- Both halves: `if dlp_inst_ing is not None: … ` and then
`if dlp_inst_egr is not None: …` in one `try`. -/
def run (s : St) (p : Prog) (wf ing egr : Bool) : Done × Bool :=
  let r := if ing then ops s p wf .ing (p.ops .ing) {} else ({}, true)
  if r.2 then (if egr then ops s p wf .egr (p.ops .egr) r.1 else r) else r

/-- `pipeline/e2e_batch.py` lines 56-94. -/
def e2eBatch : Prog where
  file := "pipeline/e2e_batch.py"
  bound := ["args"]
  ops _ :=
    [(false, .attr ["DiffractionCorrection"]), (false, .name "args"),
     (false, .recon ["rng", "resolution_factor", "psitype", "wtype", "use_fwd", "use_norm",
       "bfac", "write_file", "verbose"]),
     (false, .attr ["tools", "plot_summary_doc_v2"]), (false, .doc)]

/-- `pipeline/e2e_scattered.py` lines 51-89. -/
def e2eScattered : Prog where
  file := "pipeline/e2e_scattered.py"
  bound := ["args"]
  ops _ :=
    [(false, .attr ["DiffractionCorrection"]), (false, .name "args"),
     (false, .recon ["rng", "resolution_factor", "psitype", "wtype", "use_fwd", "use_norm",
       "bfac", "write_file", "verbose"]),
     (false, .attr ["tools", "plot_summary_doc_v2"]), (false, .doc)]

/-- `pipeline/e2e_batch_postUSO_1km.py` lines 97-135; the program has no `args` (lines
1-50). -/
def e2ePostUSO : Prog where
  file := "pipeline/e2e_batch_postUSO_1km.py"
  bound := []
  ops _ :=
    [(false, .attr ["DiffractionCorrection"]), (false, .name "args"),
     (false, .recon ["rng", "resolution_factor", "psitype", "wtype", "use_fwd", "use_norm",
       "bfac", "write_file", "verbose"]),
     (false, .attr ["tools", "plot_summary_doc_v2"]), (false, .doc)]

/-- `pipeline/e2e_batch_500m.py` lines 97-133. -/
def e2e500 : Prog where
  file := "pipeline/e2e_batch_500m.py"
  bound := []
  ops _ :=
    [(false, .attr ["DiffractionCorrection"]),
     (false, .recon ["rng", "resolution_factor", "psitype", "wtype", "use_fwd", "use_norm",
       "bfac", "verbose"]),
     (false, .attr ["tools", "plot_summary_doc_v2"]), (false, .doc)]

/-- `pipeline/e2e_batch_1km.py` lines 117-165. -/
def e2e1km : Prog where
  file := "pipeline/e2e_batch_1km.py"
  bound := []
  ops
    | .ing =>
      [(false, .attr ["DiffractionCorrection"]),
       (false, .recon ["rng", "resolution_factor", "psitype", "wtype", "use_fwd",
         "use_norm", "bfac", "verbose"]),
       (true, .write), (true, .attr ["tools", "plot_summary_doc_v2"]), (true, .doc)]
    | .egr =>
      [(false, .attr ["DiffractionCorrection"]),
       (false, .recon ["rng", "resolution_factor", "psitype", "wtype", "use_norm", "bfac",
         "verbose"]),
       (true, .write), (true, .attr ["tools", "plot_summary_doc_v2"]), (true, .doc)]

/-- `examples/pipeline_examples/e2e_run.py` lines 46-61 (there without `try`). -/
def e2eRun : Prog where
  file := "examples/pipeline_examples/e2e_run.py"
  bound := ["args"]
  ops _ :=
    [(false, .attr ["diffrec", "DiffractionCorrection"]), (false, .name "args"),
     (false, .recon ["rng", "res_factor", "psitype", "wtype", "fwd", "norm", "bfac",
       "write_file", "verbose"]),
     (false, .attr ["tools", "plot_summary_doc_v2"]), (false, .doc)]

/-- `pipeline/e2e_batch_1km_20260130.py` lines 207-277. -/
def e2eNewest : Prog where
  file := "pipeline/e2e_batch_1km_20260130.py"
  bound := ["data_from_inst", "set_tau_history_from_inst", "compute_tau_threshold",
    "get_CORSS_8001_TAUfile"]
  ops
    | .ing =>
      [(false, .name "data_from_inst"), (false, .attr ["DiffractionCorrection"]),
       (false, .recon ["rng", "resolution_factor", "psitype", "wtype", "use_fwd",
         "use_norm", "bfac", "verbose"]),
       (false, .name "set_tau_history_from_inst"), (false, .name "compute_tau_threshold"),
       (true, .write), (true, .name "get_CORSS_8001_TAUfile"),
       (true, .attr ["tools", "plot_summary_doc_v5"]), (true, .doc)]
    | .egr =>
      [(false, .name "data_from_inst"), (false, .attr ["DiffractionCorrection"]),
       (false, .recon ["rng", "resolution_factor", "psitype", "wtype", "use_norm", "bfac",
         "verbose"]),
       (false, .name "set_tau_history_from_inst"), (false, .name "compute_tau_threshold"),
       (true, .write), (true, .name "get_CORSS_8001_TAUfile"),
       (true, .attr ["tools", "plot_summary_doc_v5"]), (true, .doc)]

end Verif.E2e
