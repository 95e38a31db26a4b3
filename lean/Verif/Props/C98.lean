/-
C98: each column of a benchmark table shows the quantity of its heading.

status: partial
note: C98_simple_partial, C98_batch_partial: for every list of measurements and every setting of the number of threads without a dash in it, the table has one row for each title in the same order, a row has as many entries as the heading, and the entries are the name of the transaction, the threads, the function, the numbers of inputs and outputs, the depth, the sizes (in kilobytes for the note and the keys) and the time that was measured under this very title. C98_titles: whatever the setting is, the titles of different measurements in one run differ, so no measurement overwrites the other's file. FALSE without the condition on the number of threads, which is copied from RAYON_NUM_THREADS unread: C98_shift_false: with a dash in it every row of a batch table shows the rest of that text as the function, the function as the number of inputs, and so on, without an error. C98_broken: in the table of single notes the same dash makes the utility ratio be read as the size of the note.
-/
import Verif.Model.Bench
import Verif.Lemmas.Basic

namespace Cap

open Bench

/-- The rows that a table should have. -/
def Spec.simpleRow (kb : List Char → Res (List Char)) (desc threads : List Char) (ratio : ℕ → ℕ → List Char) (x : Simple)
    (time : List Char) (row : List (List Char)) : Prop :=
  ∃ note pk vk, kb (dec x.note_size) = .ok note ∧ kb (dec x.proving_key_size) = .ok pk ∧
    kb (dec x.verifying_key_size) = .ok vk ∧
    headersSimple.zip row = [("TRANSACTION", desc), ("N_THREADS", threads), ("FUNCTION", x.fun_desc),
      ("N_INPUTS", dec x.num_inputs), ("N_OUTPUTS", dec x.num_outputs), ("TREE_HEIGHT", dec x.tree_depth),
      ("DOMAIN_SIZE", dec x.domain_size), ("N_CONSTRAINTS", dec x.n_constraints),
      ("UTILITY_RATIO(%)", ratio x.n_constraints x.domain_size), ("TRANSFER_NOTE_SIZE (KB)", note),
      ("PROVING_KEY_SIZE (KB)", pk), ("VERIFYING_KEY_SIZE (KB)", vk), ("TIME (ms)", time)] ∧
    row.length = headersSimple.length

/-- The same for batches. -/
def Spec.batchRow (desc threads : List Char) (x : Batch) (time : List Char) (row : List (List Char)) : Prop :=
  headersBatch.zip row = [("TRANSACTION", desc), ("N_THREADS", threads), ("FUNCTION", x.fun_desc),
    ("N_INPUTS", dec x.num_inputs), ("N_OUTPUTS", dec x.num_outputs), ("TREE_HEIGHT", dec x.tree_depth),
    ("N_NOTES", dec x.num_notes), ("TIME (ms)", time)] ∧ row.length = headersBatch.length

open Spec

theorem dec_dash (n : ℕ) : '-' ∉ dec n := by
  intro h
  have := Nat.isDigit_of_mem_toDigits (by decide) (by decide) h
  exact absurd this (by decide)

theorem dec_inj {m n : ℕ} (h : dec m = dec n) : m = n := by
  have := congrArg (Nat.ofDigitChars 10 · 0) h
  simpa [dec] using this

theorem split_dashed {l : List (List Char)} (h : ∀ x ∈ l, '-' ∉ x) (ne : l ≠ []) : (dashed l).splitOn '-' = l :=
  List.splitOn_intercalate '-' h ne

/-- the parts of a title -/
def partsSimple (threads : List Char) (ratio : ℕ → ℕ → List Char) (x : Simple) : List (List Char) :=
  [threads, x.fun_desc, dec x.num_inputs, dec x.num_outputs, dec x.tree_depth, dec x.domain_size,
    dec x.n_constraints, ratio x.n_constraints x.domain_size, dec x.note_size, dec x.proving_key_size,
    dec x.verifying_key_size]

theorem split_simple {threads : List Char} (ht : '-' ∉ threads) {ratio : ℕ → ℕ → List Char} (hr : ∀ m n, '-' ∉ ratio m n)
    {x : Simple} (hx : '-' ∉ x.fun_desc) : (titleSimple threads ratio x).splitOn '-' = partsSimple threads ratio x := by
  apply split_dashed _ (by simp)
  simp [ht, hx, hr, dec_dash]

theorem split_batch {threads : List Char} (ht : '-' ∉ threads) {x : Batch} (hx : '-' ∉ x.fun_desc) :
    (titleBatch threads x).splitOn '-' =
      [threads, x.fun_desc, dec x.num_inputs, dec x.num_outputs, dec x.tree_depth, dec x.num_notes] := by
  apply split_dashed _ (by simp)
  simp [ht, hx, dec_dash]

/-- **Tables of single notes.** -/
theorem C98_simple_partial {threads : List Char} (ht : '-' ∉ threads) {ratio : ℕ → ℕ → List Char}
    (hr : ∀ m n, '-' ∉ ratio m n) {kb : List Char → Res (List Char)} (hkb : ∀ n, ∃ y, kb (dec n) = .ok y) (desc : List Char)
    (timeOf : List Char → Res (List Char)) : ∀ {xs : List Simple}, (∀ x ∈ xs, '-' ∉ x.fun_desc) →
    (∀ x ∈ xs, ∃ t, timeOf (titleSimple threads ratio x) = .ok t) →
    ∃ table, rows (recordSimple kb) desc timeOf (xs.map (titleSimple threads ratio)) = .ok table ∧
      List.Forall₂ (fun x row => ∃ t, timeOf (titleSimple threads ratio x) = .ok t ∧ simpleRow kb desc threads ratio x t row)
        xs table
  | [], _, _ => ⟨[], rfl, .nil⟩
  | x :: xs, hx, hm => by
    obtain ⟨table, h1, h2⟩ := C98_simple_partial ht hr hkb desc timeOf (xs := xs) (fun y hy => hx y (.tail _ hy))
      (fun y hy => hm y (.tail _ hy))
    obtain ⟨t, h3⟩ := hm x (.head _)
    obtain ⟨a, ha⟩ := hkb x.note_size
    obtain ⟨b, hb⟩ := hkb x.proving_key_size
    obtain ⟨c, hc⟩ := hkb x.verifying_key_size
    refine ⟨[desc, threads, x.fun_desc, dec x.num_inputs, dec x.num_outputs, dec x.tree_depth, dec x.domain_size,
      dec x.n_constraints, ratio x.n_constraints x.domain_size, a, b, c, t] :: table, ?_,
      .cons ⟨t, h3, a, b, c, ha, hb, hc, rfl, rfl⟩ h2⟩
    simp only [List.map_cons, rows, split_simple ht hr (hx x (.head _)), h3, h1]
    simp [partsSimple, recordSimple, at_, ha, hb, hc, bind, Except.bind]

/-- **Tables of batches.** -/
theorem C98_batch_partial {threads : List Char} (ht : '-' ∉ threads) (desc : List Char)
    (timeOf : List Char → Res (List Char)) : ∀ {xs : List Batch}, (∀ x ∈ xs, '-' ∉ x.fun_desc) →
    (∀ x ∈ xs, ∃ t, timeOf (titleBatch threads x) = .ok t) →
    ∃ table, rows recordBatch desc timeOf (xs.map (titleBatch threads)) = .ok table ∧
      List.Forall₂ (fun x row => ∃ t, timeOf (titleBatch threads x) = .ok t ∧ batchRow desc threads x t row) xs table
  | [], _, _ => ⟨[], rfl, .nil⟩
  | x :: xs, hx, hm => by
    obtain ⟨table, h1, h2⟩ := C98_batch_partial ht desc timeOf (xs := xs) (fun y hy => hx y (.tail _ hy))
      (fun y hy => hm y (.tail _ hy))
    obtain ⟨t, h3⟩ := hm x (.head _)
    refine ⟨[desc, threads, x.fun_desc, dec x.num_inputs, dec x.num_outputs, dec x.tree_depth, dec x.num_notes, t] :: table,
      ?_, .cons ⟨t, h3, rfl, rfl⟩ h2⟩
    simp only [List.map_cons, rows, split_batch ht (hx x (.head _)), h3, h1]
    simp [recordBatch, at_, bind, Except.bind]

theorem same_rest {a b c : List Char} {l m : List (List Char)} (h : dashed (a :: b :: l) = dashed (a :: c :: m)) :
    dashed ([] :: b :: l) = dashed ([] :: c :: m) := by
  simpa [dashed, List.intercalate] using h

/-- **Different measurements have different titles.** -/
theorem C98_titles (threads : List Char) {ratio : ℕ → ℕ → List Char} (hr : ∀ m n, '-' ∉ ratio m n) :
    (∀ x y : Simple, '-' ∉ x.fun_desc → '-' ∉ y.fun_desc → titleSimple threads ratio x = titleSimple threads ratio y → x = y) ∧
    ∀ x y : Batch, '-' ∉ x.fun_desc → '-' ∉ y.fun_desc → titleBatch threads x = titleBatch threads y → x = y := by
  constructor
  · intro x y hx hy h
    have e := congrArg (List.splitOn '-') (same_rest h)
    change (titleSimple [] ratio x).splitOn '-' = (titleSimple [] ratio y).splitOn '-' at e
    rw [split_simple (by simp) hr hx, split_simple (by simp) hr hy] at e
    simp only [partsSimple, List.cons.injEq, true_and, and_true] at e
    obtain ⟨e1, e2, e3, e4, e5, e6, -, e7, e8, e9⟩ := e
    cases x; cases y
    simp only at e1 e2 e3 e4 e5 e6 e7 e8 e9
    rw [e1, dec_inj e2, dec_inj e3, dec_inj e4, dec_inj e5, dec_inj e6, dec_inj e7, dec_inj e8, dec_inj e9]
  · intro x y hx hy h
    have e := congrArg (List.splitOn '-') (same_rest h)
    change (titleBatch [] x).splitOn '-' = (titleBatch [] y).splitOn '-' at e
    rw [split_batch (by simp) hx, split_batch (by simp) hy] at e
    simp only [List.cons.injEq, true_and, and_true] at e
    obtain ⟨e1, e2, e3, e4, e5⟩ := e
    cases x; cases y
    simp only at e1 e2 e3 e4 e5
    rw [e1, dec_inj e2, dec_inj e3, dec_inj e4, dec_inj e5]

/-- The setting is taken as it is. -/
theorem threads_unread (s : List Char) (cpus : ℕ) : numberThreads (some s) cpus = s := rfl

/-- **With a dash in the number of threads every column of a batch table is wrong**, without an error. -/
theorem C98_shift_false {u v : List Char} (hu : '-' ∉ u) (hv : '-' ∉ v) {x : Batch} (hx : '-' ∉ x.fun_desc)
    (cpus : ℕ) {desc t : List Char} {timeOf : List Char → Res (List Char)}
    (measured : timeOf (titleBatch (numberThreads (some (u ++ '-' :: v)) cpus) x) = .ok t) :
    ∃ row, rows recordBatch desc timeOf [titleBatch (numberThreads (some (u ++ '-' :: v)) cpus) x] = .ok [row] ∧
      headersBatch.zip row = [("TRANSACTION", desc), ("N_THREADS", u), ("FUNCTION", v), ("N_INPUTS", x.fun_desc),
        ("N_OUTPUTS", dec x.num_inputs), ("TREE_HEIGHT", dec x.num_outputs), ("N_NOTES", dec x.tree_depth),
        ("TIME (ms)", t)] := by
  have e : (titleBatch (u ++ '-' :: v) x).splitOn '-' =
      [u, v, x.fun_desc, dec x.num_inputs, dec x.num_outputs, dec x.tree_depth, dec x.num_notes] := by
    have := split_dashed (l := [u, v, x.fun_desc, dec x.num_inputs, dec x.num_outputs, dec x.tree_depth, dec x.num_notes])
      (by simp [hu, hv, hx, dec_dash]) (by simp)
    rw [← this]
    simp [titleBatch, dashed, List.intercalate, List.intersperse]
  rw [threads_unread] at measured ⊢
  refine ⟨[desc, u, v, x.fun_desc, dec x.num_inputs, dec x.num_outputs, dec x.tree_depth, t], ?_, rfl⟩
  simp only [rows, e, measured]
  simp [recordBatch, at_, bind, Except.bind]

/-- **In a table of single notes the utility ratio becomes the size of the note.** -/
theorem C98_broken {u v : List Char} (hu : '-' ∉ u) (hv : '-' ∉ v) {ratio : ℕ → ℕ → List Char}
    (hr : ∀ m n, '-' ∉ ratio m n) {kb : List Char → Res (List Char)} {x : Simple} (hx : '-' ∉ x.fun_desc)
    (cpus : ℕ) {desc t a b c : List Char} {timeOf : List Char → Res (List Char)}
    (measured : timeOf (titleSimple (numberThreads (some (u ++ '-' :: v)) cpus) ratio x) = .ok t)
    (ha : kb (ratio x.n_constraints x.domain_size) = .ok a) (hb : kb (dec x.note_size) = .ok b)
    (hc : kb (dec x.proving_key_size) = .ok c) :
    ∃ row, rows (recordSimple kb) desc timeOf [titleSimple (numberThreads (some (u ++ '-' :: v)) cpus) ratio x] = .ok [row] ∧
      headersSimple.zip row = [("TRANSACTION", desc), ("N_THREADS", u), ("FUNCTION", v), ("N_INPUTS", x.fun_desc),
        ("N_OUTPUTS", dec x.num_inputs), ("TREE_HEIGHT", dec x.num_outputs), ("DOMAIN_SIZE", dec x.tree_depth),
        ("N_CONSTRAINTS", dec x.domain_size), ("UTILITY_RATIO(%)", dec x.n_constraints), ("TRANSFER_NOTE_SIZE (KB)", a),
        ("PROVING_KEY_SIZE (KB)", b), ("VERIFYING_KEY_SIZE (KB)", c), ("TIME (ms)", t)] := by
  have e : (titleSimple (u ++ '-' :: v) ratio x).splitOn '-' = u :: v :: (partsSimple u ratio x).tail := by
    have := split_dashed (l := u :: v :: (partsSimple u ratio x).tail)
      (by simp [partsSimple, hu, hv, hx, hr, dec_dash]) (by simp)
    rw [← this]
    simp [titleSimple, dashed, List.intercalate, List.intersperse, partsSimple]
  rw [threads_unread] at measured ⊢
  refine ⟨[desc, u, v, x.fun_desc, dec x.num_inputs, dec x.num_outputs, dec x.tree_depth, dec x.domain_size,
    dec x.n_constraints, a, b, c, t], ?_, rfl⟩
  simp only [rows, e, measured]
  simp [partsSimple, recordSimple, at_, ha, hb, hc, bind, Except.bind]

end Cap

namespace Cap.Examples

open Bench Spec

def ratio98 (m n : ℕ) : List Char := dec (100 * m / n)

def gen98 : Simple := ⟨genName, 2, 5, 26, 32768, 28672, 1900, 36000000, 3800⟩
def verify98 : Simple := { gen98 with fun_desc := verifyName }

/-- a conversion that drops the last three digits -/
def kb98 (s : List Char) : Res (List Char) := .ok (s.dropLast.dropLast.dropLast)

/-- two rows with four threads -/
example : ∃ table, rows (recordSimple kb98) ['t'] (fun _ => .ok ['7']) ([gen98, verify98].map (titleSimple ['4'] ratio98)) =
      .ok table ∧
    List.Forall₂ (fun x row => ∃ t, (Except.ok ['7'] : Res (List Char)) = .ok t ∧ simpleRow kb98 ['t'] ['4'] ratio98 x t row)
      [gen98, verify98] table :=
  C98_simple_partial (threads := ['4']) (by decide) (ratio := ratio98) (fun _ _ => dec_dash _) (kb := kb98)
    (fun _ => ⟨_, rfl⟩) ['t'] (fun _ => .ok ['7']) (by decide) (fun _ _ => ⟨_, rfl⟩)

example : titleSimple ['4'] ratio98 gen98 = "4-Gen-2-5-26-32768-28672-87-1900-36000000-3800".toList := by decide +kernel

example : titleSimple ['4', '-'] ratio98 gen98 ≠ titleSimple ['4', '-'] ratio98 verify98 := fun h =>
  absurd ((C98_titles ['4', '-'] (ratio := ratio98) (fun _ _ => dec_dash _)).1 gen98 verify98 (by decide) (by decide) h)
    (by decide)

def batch98 : Batch := ⟨batchName, 3, 2, 26, 12⟩

/-- the table of a batch with four threads -/
example : ∃ table, rows recordBatch ['b'] (fun _ => .ok ['7']) ([batch98].map (titleBatch ['4'])) = .ok table ∧
    List.Forall₂ (fun x row => ∃ t, (Except.ok ['7'] : Res (List Char)) = .ok t ∧ batchRow ['b'] ['4'] x t row)
      [batch98] table :=
  C98_batch_partial (threads := ['4']) (by decide) ['b'] (fun _ => .ok ['7']) (by decide) (fun _ _ => ⟨_, rfl⟩)

/-- with RAYON_NUM_THREADS=-1: the column of the threads is empty, the function is 1, the number of inputs is BatchVerify -/
example : ∃ row, rows recordBatch ['b'] (fun _ => .ok ['7']) [titleBatch (numberThreads (some ['-', '1']) 8) batch98] =
      .ok [row] ∧
    headersBatch.zip row = [("TRANSACTION", ['b']), ("N_THREADS", []), ("FUNCTION", ['1']), ("N_INPUTS", batchName),
      ("N_OUTPUTS", ['3']), ("TREE_HEIGHT", ['2']), ("N_NOTES", ['2', '6']), ("TIME (ms)", ['7'])] :=
  C98_shift_false (u := []) (v := ['1']) (by decide) (by decide) (x := batch98) (by decide) 8 rfl

/-- the size of the note is read from the ratio 87 -/
example : ∃ row, rows (recordSimple kb98) ['t'] (fun _ => .ok ['7'])
      [titleSimple (numberThreads (some ['-', '1']) 8) ratio98 gen98] = .ok [row] ∧
    (headersSimple.zip row)[9]? = some ("TRANSFER_NOTE_SIZE (KB)", []) := by
  obtain ⟨row, h1, h2⟩ := C98_broken (u := []) (v := ['1']) (by decide) (by decide) (ratio := ratio98)
    (fun _ _ => dec_dash _) (kb := kb98) (x := gen98) (by decide) 8 (desc := ['t']) (timeOf := fun _ => .ok ['7']) rfl rfl rfl
    rfl
  exact ⟨row, h1, by rw [h2]; decide +kernel⟩

end Cap.Examples
