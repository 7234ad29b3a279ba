import Verif.Proofs.CompilerCmd

/-!
C132: the command of the compiler.
-/

namespace Parcels.CompilerCmd

/-- C132: all arguments are passed on: those for the compiler, in their order, and the directories of includes before the source, the libraries, their directories and the
arguments of the linker, in their order, after it. -/
theorem C132_passed (cc : String) (wide : Bool) (a : Args) (src obj : String) :
    ∃ l r, command cc wide a src obj = cc :: l ++ ["-o", obj, src] ++ r ∧ a.cppargs <:+: l ∧ (∀ d ∈ a.incdirs, "-I" ++ d ∈ l) ∧
      a.ldargs <:+: r ∧ (∀ d ∈ a.libdirs, "-L" ++ d ∈ r) ∧ (∀ d ∈ a.libs, "-l" ++ d ∈ r) ∧ "-lm" ∈ r ∧ "-shared" ∈ r := by
  refine ⟨cpp wide a, ld wide a, rfl, ?_, ?_, ?_, ?_, ?_, ?_, ?_⟩
  · exact ⟨["-Wall", "-fPIC", "-std=gnu11"] ++ a.incdirs.map ("-I" ++ ·) ++ ["-g", "-O3"], [arch wide], by simp [cpp]⟩
  · intro d hd
    simp [cpp, hd]
  · exact ⟨["-shared"] ++ a.libdirs.map ("-L" ++ ·) ++ (libsAfter a).map ("-l" ++ ·),
      (if a.libdirs.length > 0 then ["-Wl, -rpath=" ++ ":".intercalate a.libdirs] else []) ++ [arch wide], by simp [ld]⟩
  · intro d hd
    simp [ld, hd]
  · intro d hd
    simp [ld, libsAfter, hd]
  · have : "-lm" = "-l" ++ "m" := by decide +kernel
    rw [this]
    simp [ld, libsAfter]
  · simp [ld]

/-- C132: the user's optimisation has precedence over the standard one, `-O3`. -/
theorem C132_optimisation (cc : String) (wide : Bool) (a : Args) (src obj : String) (hc : Begins "-O" cc = false) (hs : Begins "-O" src = false)
    (ho : Begins "-O" obj = false) :
    optimisation (command cc wide a src obj) = (optimisation (a.cppargs ++ a.ldargs)).or (some "-O3") := by
  have h1 := filter_map_nil "-O" "-I" (by decide +kernel) (by decide +kernel) a.incdirs
  have h2 := filter_map_nil "-O" "-L" (by decide +kernel) (by decide +kernel) a.libdirs
  have h3 := filter_map_nil "-O" "-l" (by decide +kernel) (by decide +kernel) (libsAfter a)
  have h4 : (if a.libdirs.length > 0 then ["-Wl, -rpath=" ++ ":".intercalate a.libdirs] else []).filter (Begins "-O") = [] := by
    split
    · have e : "-Wl, -rpath=" ++ ":".intercalate a.libdirs = "-W" ++ ("l, -rpath=" ++ ":".intercalate a.libdirs) := by
        rw [← String.append_assoc]
        congr 1
      rw [e]
      exact filter_map_nil "-O" "-W" (by decide +kernel) (by decide +kernel) ["l, -rpath=" ++ ":".intercalate a.libdirs]
    · rfl
  have h5 : [arch wide].filter (Begins "-O") = [] := by cases wide <;> decide +kernel
  have h6 : ["-Wall", "-fPIC", "-std=gnu11"].filter (Begins "-O") = [] := by decide +kernel
  have h7 : ["-g", "-O3"].filter (Begins "-O") = ["-O3"] := by decide +kernel
  have h8 : ["-shared"].filter (Begins "-O") = [] := by decide +kernel
  have h9 : [cc].filter (Begins "-O") = [] := by simp [hc]
  have h10 : ["-o", obj, src].filter (Begins "-O") = [] := by
    have : Begins "-O" "-o" = false := by decide +kernel
    simp [this, ho, hs]
  unfold optimisation command cpp ld
  simp only [List.filter_append, h1, h2, h3, h4, h5, h6, h7, h8, h9, h10, List.nil_append, List.append_nil, List.append_assoc]
  rw [List.getLast?_append]
  rfl

/-- C132: without MPI the compiler is the one in `CC`, or else gcc. Partial: with MPI that in `MPICC` is not used (`C132_mpicc_fails`). -/
theorem C132_compiler_partial (mpicc : Option String) : (∀ c, compiler false mpicc (some c) = c) ∧ compiler false mpicc none = "gcc" :=
  ⟨fun _ => rfl, rfl⟩

/-- C132 is false with MPI: whatever `MPICC` says, the compiler is the same as without it. -/
theorem C132_mpicc_fails (m : String) (cc : Option String) : compiler true (some m) cc = compiler false none cc ∧
    (∀ c, m ≠ c → compiler true (some m) (some c) ≠ m) := by
  refine ⟨by cases cc <;> rfl, fun c h e => h e.symm⟩

/-- C132 is false for libraries: the list of the caller is changed, and grows with each compiler that is made with it. -/
theorem C132_libs_fails (a : Args) : libsAfter a ≠ a.libs ∧ libsAfter { a with libs := libsAfter a } = a.libs ++ ["m", "m"] := by
  simp [libsAfter]

/-- C132 is false for directories of libraries: no argument sets the path under which libraries are found later, because of a space after the comma. -/
theorem C132_rpath_fails : "-Wl, -rpath=/opt/lib" ∈ command "gcc" true ⟨[], [], [], ["/opt/lib"], []⟩ "k.c" "k.so" ∧
    (command "gcc" true ⟨[], [], [], ["/opt/lib"], []⟩ "k.c" "k.so").any (Begins "-Wl,-rpath") = false := by
  decide +kernel

/-- The user asks for no optimisation. -/
example : command "gcc" true ⟨["-O0", "-DX"], [], ["include", "."], [], []⟩ "k.c" "k.so" =
      ["gcc", "-Wall", "-fPIC", "-std=gnu11", "-Iinclude", "-I.", "-g", "-O3", "-O0", "-DX", "-m64", "-o", "k.so", "k.c", "-shared", "-lm", "-m64"] ∧
    optimisation (command "gcc" true ⟨["-O0", "-DX"], [], ["include", "."], [], []⟩ "k.c" "k.so") = some "-O0" ∧
    Begins "-O" "gcc" = false ∧ Begins "-O" "k.c" = false ∧ Begins "-O" "k.so" = false := by decide +kernel

end Parcels.CompilerCmd
