# Design of the Viscid formal model

Subject: KristoforMaynard/Viscid at the pinned commit in `/repo`. The code was read as text only; nothing was run.
The model and proofs are Lean 4 (4.33.0), under `lean/Verif/`.

This file is put together by `tools/design.py` from `tools/design_head.md`, `tools/plan.json` (one line per property, written
before its proof), the headers of the model files, `MANIFEST.json` and the output of `#print axioms`.

## Layout

* `Verif/Model/*.lean`  executable definitions, each with a comment citing file and lines in `/repo`.
* `Verif/Spec/*.lean`   small independent specifications (no import of the model where possible).
* `Verif/Lemmas/*.lean` helper lemmas.
* `Verif/Props/*.lean`  the theorems, named after the property (`C17_...`), and `example`s showing that their hypotheses can
  be met.

Theorem names: `_partial` proves part of the property (the doc comment says what is missing), `_violated` proves that the code
disagrees with the property, by a concrete witness or for a whole class of inputs. A property with a theorem of either kind is
"partial" in MANIFEST.json.

## Trusted base

* Lean's kernel, and the axioms `propext`, `Classical.choice`, `Quot.sound` (standard Lean axioms; nothing else). The table at
  the end says which theorem depends on which of them.
* The reading of the code: every definition cites what it models; the code was not executed, so that the agreement of model and
  code rests on that reading alone.
* The parts of Python, numpy, h5py and the like the models use (slicing, dicts, broadcasting, `arctan2`, ...), written down
  from their documentation: `Spec/Slice.lean` (slices), `Model/Dict.lean` (dicts), and definitions next to their use.
* Mathlib's definitions of the real numbers, `Real.sqrt/sin/cos/exp/log`, `Complex.arg` where used.

## General modelling decisions

* Python ints are `Int`/`Nat`; floats are elements of an ordered field (`Rat`), or `Real` where roots,
  logarithms or trigonometry occur. Floating point rounding, infinities and signed zeros are **not** modelled; NaN is `none`
  where the code can meet it.
* numpy arrays are `List`s or functions from indices, shapes explicit where a property is about shape.
* Exceptions are values (`Except`/`Option`). Logging is dropped.
* Object identity is modelled by explicit ids where the code uses `is`.
* Threads/processes: `multiprocessing`'s and `concurrent.futures`' promise to return results in
  submission order is assumed; the scatter/gather logic around it is modelled.

## Not modelled at all

* Plotting (`plot/`), the command line tools, `vlab`, `tools/`, `compat/`, tests and documentation.
* Parsing of XDMF, HDF5, VPIC, PSC, Athena and Gkeyll files and writing of files; of the readers only type detection, the
  JRRLE codec, field lookup of JRRLE files, and of the GGCM readers the getters of grids, grouping and searching of files,
  headers' times, grid2 coordinates, the choice of coordinate system and the log file's state machine.
* Calendar parsing of dates (left to numpy; a parameter); the evaluator's numexpr path and `eval` itself; `pyeval`, `extools`.
* The numerical libraries: eigenvalues, splines, HDF5, XML, regular expressions and the standard `json` are parameters.
