import Mathlib.Data.List.Basic

/-!
Model of the script `parcels_get_examples` (parcels/scripts/get_examples.py:52-125), which copies the examples of the package into a directory and downloads the data files
that are still missing.

Simplifications: each data file is in a folder of the directory (as are all those listed in get_examples.py:19-49); copying the examples is one step; writing a file is one
step, after the file was opened; the progress bar and the printed messages are left out.
-/

namespace Parcels.GetExamples

/-- Folder and name of a file. Models: get_examples.py:19-49. -/
abbrev Name := String × String

/-- The directory: whether it exists, its folders and its files. Models: get_examples.py:98-125. -/
structure Target where
  there : Bool
  dirs : String → Bool
  files : Name → Option String

/-- The file `n` gets the content `c`. Models: get_examples.py:94-95. -/
def put (f : Name → Option String) (n : Name) (c : String) : Name → Option String := fun m => if m = n then some c else f m

/-- What happens to the directory: it is made, made as a copy of the examples of the package, gets a folder, or a file is written. Models: get_examples.py:52-95. -/
inductive Event where
  | create
  | copy (package : Target)
  | mkdir (d : String)
  | write (n : Name) (c : String)

/-- One event. Models: get_examples.py:52-95. -/
def apply (t : Target) : Event → Target
  | .create => { t with there := true }
  | .copy p => ⟨true, p.dirs, p.files⟩
  | .mkdir d => { t with dirs := fun e => if e = d then true else t.dirs e }
  | .write n c => { t with files := put t.files n c }

/-- Events one after the other. Models: get_examples.py:52-95. -/
def run (t : Target) (es : List Event) : Target := es.foldl apply t

/-- `_still_to_download`: names of existing files are removed from the list itself. Models: get_examples.py:76-81. -/
def still (names : List Name) (f : Name → Option String) : List Name :=
  names.foldl (fun l n => if (f n).isSome then l.erase n else l) names

/-- The loop of `download_files`, with the server as a function; `false`: the server does not have the file, an error. `open` makes an empty file.
Models: get_examples.py:89-95. -/
def events (server : Name → Option String) : (Name → Option String) → List Name → List Event × Bool
  | _, [] => ([], true)
  | f, n :: ns =>
    if (f n).isSome then (.mkdir n.1 :: (events server f ns).1, (events server f ns).2)
    else match server n with
      | none => ([.mkdir n.1], false)
      | some c => (.mkdir n.1 :: .write n "" :: .write n c :: (events server (put f n c) ns).1, (events server (put f n c) ns).2)

/-- `download_files`. Models: get_examples.py:84-95. -/
def download (server : Name → Option String) (names : List Name) (t : Target) : List Event × Bool :=
  (.create :: (events server t.files names).1, (events server t.files names).2)

/-- `copy_data_and_examples_from_package_to`: `copytree` refuses a directory that exists, and the error is only printed. Models: get_examples.py:61-73. -/
def copyEvents (package t : Target) : List Event := if t.there then [] else [.copy package]

/-- `main`: the events, the list of names afterwards (`example_data_files` is the list that `_still_to_download` changes), and whether there was no error.
Models: get_examples.py:98-125. -/
def main (package : Target) (server : Name → Option String) (names : List Name) (t : Target) : List Event × List Name × Bool :=
  if t.dirs "MovingEddies_data" then ([], names, true)
  else
    let c := copyEvents package t
    let t1 := run t c
    let l := still names t1.files
    (c ++ (download server l t1).1, l, (download server l t1).2)

end Parcels.GetExamples
