import Verif.Spec.AutoChunks

/-!
C129: automatic chunks.
-/

namespace Parcels.AutoChunks

theorem describes4 (file : Dim → Found) (a b c d : Nat) :
    Describes file [.time, .depth, .lat, .lon] [a, b, c, d]
      (put (put (put (put empty .time (file .time).name a) .depth (file .depth).name b) .lat (file .lat).name c) .lon (file .lon).name d) := by
  constructor
  · intro i e k h1 h2
    match i with
    | 0 | 1 | 2 | 3 => simp at h1 h2; subst h1; subst h2; rfl
    | n + 4 => simp at h1
  · intro e he
    cases e <;> simp at he

theorem describes3 (file : Dim → Found) (x : Dim) (hx : x = .time ∨ x = .depth) (a b c : Nat) :
    Describes file [x, .lat, .lon] [a, b, c] (put (put (put empty x (file x).name a) .lat (file .lat).name b) .lon (file .lon).name c) := by
  constructor
  · intro i e k h1 h2
    match i with
    | 0 => simp at h1 h2; subst h1; subst h2; rcases hx with rfl | rfl <;> rfl
    | 1 | 2 => simp at h1 h2; subst h1; subst h2; rfl
    | n + 3 => simp at h1
  · intro e he
    rcases hx with rfl | rfl <;> cases e <;> simp at he <;> rfl

/-- C129: the dictionary that is kept describes the chunks of the data. Partial: data with four axes; data with depth, latitude and longitude, if the file has several
levels; data with time, latitude and longitude, if the file has several times and the field no levels (`C129_one_time_fails`, `C129_depth_fails`, `C129_flat_fails`). -/
theorem C129_kept_partial (file : Dim → Found) (axes : List Dim) (m : List Nat) (hl : m.length = axes.length)
    (h : axes = [.time, .depth, .lat, .lon] ∨
      (axes = [.depth, .lat, .lon] ∧ (file .depth).index = true ∧ 1 < (file .depth).size ∧ (file .depth).available = true) ∨
      (axes = [.time, .lat, .lon] ∧ (file .time).index = true ∧ 1 < (file .time).size ∧ (file .time).available = true ∧
        ((file .depth).index = false ∨ (file .depth).size ≤ 1 ∨ (file .depth).available = false))) :
    Describes file axes m (toChunks file m) := by
  rcases h with rfl | ⟨rfl, h1, h2, h3⟩ | ⟨rfl, h1, h2, h3, h4⟩
  · match m, hl with
    | [a, b, c, d], _ => exact describes4 file a b c d
  · match m, hl with
    | [a, b, c], _ =>
      have hd : (file .depth).long = true := by simp [Found.long, h1, h2, h3]
      have := describes3 file .depth (Or.inr rfl) a b c
      simpa [toChunks, hd] using this
  · match m, hl with
    | [a, b, c], _ =>
      have hd : (file .depth).long = false := by
        rcases h4 with h | h | h
        · simp [Found.long, h]
        · simp [Found.long, Nat.not_lt.2 h]
        · simp [Found.long, h]
      have ht : (file .time).long = true := by simp [Found.long, h1, h2, h3]
      have := describes3 file .time (Or.inl rfl) a b c
      simpa [toChunks, hd, ht] using this

/-- C129 is false for files with one time each and no levels: the size 1 of the chunk in time is taken for the latitude, and that of the latitude for the longitude. -/
theorem C129_one_time_fails (file : Dim → Found) (ht : (file .time).size = 1) (hd : (file .depth).available = false) (b c : Nat) :
    toChunks file [1, b, c] .lat = some ((file .lat).name, 1) ∧ toChunks file [1, b, c] .lon = some ((file .lon).name, b) ∧
    (b ≠ 1 → ¬ Describes file [.time, .lat, .lon] [1, b, c] (toChunks file [1, b, c])) := by
  have h1 : (file .depth).long = false := by simp [Found.long, hd]
  have h2 : (file .time).long = false := by simp [Found.long, ht]
  have e : toChunks file [1, b, c] = put (put empty .lat (file .lat).name 1) .lon (file .lon).name b := by simp [toChunks, h1, h2]
  rw [e]
  refine ⟨rfl, rfl, ?_⟩
  intro hb hc
  have := hc.1 1 .lat b rfl rfl
  simp [put] at this
  exact hb this.symm

/-- C129 is false for data with time, latitude and longitude in a file that has several levels, if the field has a depth (at the surface, for instance): the chunk in
time is taken for one in depth. -/
theorem C129_depth_fails (file : Dim → Found) (h1 : (file .depth).index = true) (h2 : 1 < (file .depth).size) (h3 : (file .depth).available = true) (a b c : Nat) :
    toChunks file [a, b, c] .depth = some ((file .depth).name, a) ∧ toChunks file [a, b, c] .time = none := by
  have hd : (file .depth).long = true := by simp [Found.long, h1, h2, h3]
  have e : toChunks file [a, b, c] = put (put (put empty .depth (file .depth).name a) .lat (file .lat).name b) .lon (file .lon).name c := by simp [toChunks, hd]
  rw [e]
  exact ⟨rfl, rfl⟩

/-- C129 is false for data with latitude and longitude only: each is kept under the name of the other. -/
theorem C129_flat_fails (file : Dim → Found) (a b : Nat) :
    toChunks file [a, b] .lat = some ((file .lon).name, b) ∧ toChunks file [a, b] .lon = some ((file .lat).name, a) := ⟨rfl, rfl⟩

/-- A file with 12 times, 30 levels and a grid of 400 by 600 points. -/
def exFile : Dim → Found
  | .time => ⟨true, "time_counter", 12, true⟩
  | .depth => ⟨true, "deptht", 30, true⟩
  | .lat => ⟨true, "y", 400, true⟩
  | .lon => ⟨true, "x", 600, true⟩

/-- The same without levels, and with one time. -/
def exDaily : Dim → Found
  | .time => ⟨true, "time", 1, true⟩
  | .depth => ⟨false, "", 0, false⟩
  | .lat => ⟨true, "lat", 400, true⟩
  | .lon => ⟨true, "lon", 600, true⟩

example : [Dim.time, .depth, .lat, .lon].map (toChunks exFile [1, 30, 128, 256]) =
    [some ("time_counter", 1), some ("deptht", 30), some ("y", 128), some ("x", 256)] ∧
    [Dim.time, .depth, .lat, .lon].map (toChunks exFile [30, 128, 256]) = [none, some ("deptht", 30), some ("y", 128), some ("x", 256)] ∧
    [Dim.time, .depth, .lat, .lon].map (toChunks exDaily [1, 128, 256]) = [none, none, some ("lat", 1), some ("lon", 128)] ∧
    (exDaily .time).size = 1 ∧ (exDaily .depth).available = false := by decide +kernel

end Parcels.AutoChunks
