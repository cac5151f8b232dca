import Verif.Model.Config
import Verif.Model.Disk

/-!
# Model of a call of the program with its disk

`pyftle ARGS`: the command line, the configuration file, the lists of files, the process manager
and the output folder put together.
-/

namespace Verif

variable {K F α : Type}

/-- The name of a file that has been written. -/
def Saved.name : Saved K F → String
  | .mat n .. => n
  | .vts n .. => n
  | .vtp n .. => n

/-- A call that has got as far as `MultipleFTLEProcessManager.run` (__main__.py:231). -/
structure Started (K F : Type) where
  program : Program K F
  writer : Writer
  folder : PathStr

/-- `MultipleFTLEProcessManager()` (__main__.py:69-89): the disk afterwards, the messages about the
output folder and the outcome.  The output folder is made by `create_writer`, the last call that can
fail.  `texts` gives the text files (the configuration file and the lists), `per` is
`int(flow_map_period / abs(snapshot_timestep)) + 1`.  Simplification: the text files and the `.mat`
files are not looked up on the disk `d` (they are given by `texts` and by `Env.fs`). -/
def startCommand [Zero K] [LT K] [DecidableLT K] [Inhabited F] (cd : CharData)
    (float : Str → Option K) (json : Str → List Str) (texts : Str → Option Str)
    (per : K → K → Py ℤ) (lower : String → String) (d : Disk α) (argv : List Str) :
    Disk α × List String × Except Stop (Started K F) :=
  match parseCommand cd float json texts argv with
  | .error e => (d, [], .error e)
  | .ok ns =>
    match ns.program texts per, ns .experimentName with
    | some a, some name =>
      match Program.create lower a with
      | .error e => (d, [], .error (.raised e))
      | .ok P =>
        match cliWriter a.options.outputFormat with
        | .error e => (d, [], .error (.raised e))
        | .ok w =>
          ((d.openFolder (experimentFolder name)).1, (d.openFolder (experimentFolder name)).2,
            .ok ⟨P, Writer.fresh w a.particlesGridShape, experimentFolder name⟩)
    | _, _ => (d, [], .error (.raised .attributeError))

/-- The file for one call of `write`. -/
def Writer.savedFile [Zero K] [Inhabited F] (w : Writer) (file : Saved K F → α)
    (e : String × (List F × NDArray K)) : List (List Char × α) :=
  match (w.write e.1 (arrayOfList e.2.1) e.2.2).2 with
  | .error _ => []
  | .ok s => [(s.name.toList, file s)]

/-- The files of a run, in the order `order` in which the tasks get to saving theirs.  `rs` are the
outcomes of the tasks, `file` the contents of a file as the disk has them. -/
def Started.files [Zero K] [Inhabited F] (st : Started K F) (file : Saved K F → α)
    (rs : List (Option (Option (List F) × List (Event K F)))) (order : List ℕ) :
    List (List Char × α) :=
  order.flatMap fun i => (savedBy ((rs[i]?).getD none)).flatMap (st.writer.savedFile file)

end Verif
