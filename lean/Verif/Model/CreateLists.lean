import Verif.Model.FileUtils

/-!
# Model of `create_list_of_input_files.py`

The script finds the `.mat` files below a directory, sorts them into three lists by their names
and writes the lists.  Existence and permissions of the directories are not modelled; the lines
saying where the lists were saved (lines 28, 33, 38) are left out of the printed lines.
-/

namespace Verif

/-- `needle in s` for strings. -/
def strIn (needle s : List Char) : Bool := s.tails.any fun t => needle.isPrefixOf t

/-- `sorted([f for f in all_mat_files if keyword in f])`
(create_list_of_input_files.py:14-16). -/
def selectFiles (keyword : List Char) (files : List (List Char)) : List (List Char) :=
  (files.filter fun f => strIn keyword f).mergeSort strLe

/-- What the script leaves behind: the contents of the three list files and the warnings. -/
structure ListsOut where
  velocity : List Char
  coordinate : List Char
  particle : List Char
  warnings : List String

/-- `main` (create_list_of_input_files.py:9-38).  The third warning tests `coordinate_files`. -/
def createLists (entries : Listing) : ListsOut :=
  let all := findFiles entries ".mat".toList
  let velocityFiles := selectFiles "velocities".toList all
  let coordinateFiles := selectFiles "coordinate".toList all
  let particleFiles := selectFiles "particles".toList all
  { velocity := writeList velocityFiles
    coordinate := writeList coordinateFiles
    particle := writeList particleFiles
    warnings :=
      (if velocityFiles.isEmpty then ["Warning: No velocity files found."] else []) ++
      (if coordinateFiles.isEmpty then ["Warning: No coordinate file found."] else []) ++
      (if coordinateFiles.isEmpty then ["Warning: No particle file found."] else []) }

end Verif
