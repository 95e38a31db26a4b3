/-
Rules for programs that build a circuit: what a run adds to the circuit, when it succeeds, that the layout does not
depend on the values, and what the gates say about any assignment.
-/
import Verif.Model.Circuit.Plonk

namespace Cap.Plonk

variable [E : CapEnv]

theorem bind_def {α β : Type} (m : Prog α) (f : α → Prog β) : (m >>= f) = m.bind f := rfl
theorem pure_def {α : Type} (x : α) : (pure x : Prog α) = .pure x := rfl

theorem run_bind {α β : Type} (m : Prog α) (f : α → Prog β) (s : Circ) :
    (m >>= f).run s = (m.run s).bind fun x => (f x.1).run x.2 := by
  rw [bind_def]
  induction m generalizing s with
  | pure x => rfl
  | fail => rfl
  | newVar v k ih => exact ih _ _
  | newBool b k ih => exact ih _ _
  | newPos n k ih => exact ih _ _ _
  | newSig g k ih => exact ih _ _
  | emit o ins sigs k ih =>
    simp only [Prog.bind, Prog.run]
    split
    · exact ih _ _
    · rfl
  | assert c ins k ih =>
    simp only [Prog.bind, Prog.run]
    split
    · exact ih _
    · rfl
  | setPublic v k ih =>
    simp only [Prog.bind, Prog.run]
    split
    · exact ih _
    · rfl

theorem run_bind_some {α β : Type} {m : Prog α} {f : α → Prog β} {s : Circ} {y : β × Circ}
    (h : (m >>= f).run s = some y) : ∃ x t, m.run s = some (x, t) ∧ (f x).run t = some y := by
  rw [run_bind] at h
  cases hm : m.run s with
  | none => rw [hm] at h; simp at h
  | some z => rw [hm] at h; exact ⟨z.1, z.2, rfl, h⟩

/-! ### The number of new variables -/

/-- how many variables a gadget makes -/
def Op.arity (o : Op) (n k : ℕ) : ℕ := (o.eval (List.replicate n 0) (List.replicate k (E.schnorrSign 0 []))).length

theorem applyStream_len (ks : ℕ → F) : ∀ (msg : List F) (i : ℕ), (applyStream ks i msg).length = msg.length
  | [], _ => rfl
  | _ :: l, i => by simp [applyStream, applyStream_len ks l]

theorem derive_len (pk : PtV) (msg : List F) (r : F) : (MemoV.derive pk msg r).data.length = msg.length :=
  applyStream_len _ _ _

/-- the number depends only on how many variables are given -/
theorem Op.eval_length_congr (o : Op) {l l' : List F} {g g' : List E.Sig} (h : l.length = l'.length)
    (hg : g.length = g'.length) : (o.eval l g).length = (o.eval l' g').length := by
  cases o <;>
    (rcases l with _ | ⟨a, _ | ⟨b, _ | ⟨c, _ | ⟨d, _ | ⟨e, l⟩⟩⟩⟩⟩ <;>
     rcases l' with _ | ⟨a', _ | ⟨b', _ | ⟨c', _ | ⟨d', _ | ⟨e', l'⟩⟩⟩⟩⟩ <;>
     first
     | (simp at h; done)
     | (rcases g with _ | ⟨x, _ | ⟨y, g⟩⟩ <;> rcases g' with _ | ⟨x', _ | ⟨y', g'⟩⟩ <;>
        first
        | (simp at hg; done)
        | (simp only [List.length_cons, List.length_nil, Nat.add_right_cancel_iff] at h
           simp [Op.eval, derive_len, h])
        | simp [Op.eval, derive_len]))

theorem Op.eval_length (o : Op) (l : List F) (g : List E.Sig) : (o.eval l g).length = o.arity l.length g.length :=
  o.eval_length_congr (by simp) (by simp)

/-! ### Two runs with other values have the same layout -/

/-- the same calls with other values -/
def Same {α : Type} : Prog α → Prog α → Prop
  | .pure x, .pure y => x = y
  | .fail, .fail => True
  | .newVar _ k, .newVar _ k' => ∀ v, Same (k v) (k' v)
  | .newBool _ k, .newBool _ k' => ∀ v, Same (k v) (k' v)
  | .newPos _ k, .newPos _ k' => ∀ v w, Same (k v w) (k' v w)
  | .newSig _ k, .newSig _ k' => ∀ v, Same (k v) (k' v)
  | .emit o ins sigs k, .emit o' ins' sigs' k' => o = o' ∧ ins = ins' ∧ sigs = sigs' ∧ ∀ l, Same (k l) (k' l)
  | .assert c ins k, .assert c' ins' k' => c = c' ∧ ins = ins' ∧ Same k k'
  | .setPublic v k, .setPublic v' k' => v = v' ∧ Same k k'
  | _, _ => False

theorem Same.refl {α : Type} (m : Prog α) : Same m m := by
  induction m with
  | pure x => rfl
  | fail => trivial
  | newVar v k ih => exact ih
  | newBool b k ih => exact ih
  | newPos n k ih => exact ih
  | newSig g k ih => exact ih
  | emit o ins sigs k ih => exact ⟨rfl, rfl, rfl, ih⟩
  | assert c ins k ih => exact ⟨rfl, rfl, ih⟩
  | setPublic v k ih => exact ⟨rfl, ih⟩

theorem Same.bind {α β : Type} {m m' : Prog α} {f f' : α → Prog β} (h : Same m m') (hf : ∀ x, Same (f x) (f' x)) :
    Same (m >>= f) (m' >>= f') := by
  rw [bind_def, bind_def]
  induction m generalizing m' with
  | pure x => cases m' <;> first | exact h.elim | (cases h; exact hf _)
  | fail => cases m' <;> first | exact h.elim | trivial
  | newVar v k ih => cases m' <;> first | exact h.elim | exact fun v => ih v (h v)
  | newBool b k ih => cases m' <;> first | exact h.elim | exact fun v => ih v (h v)
  | newPos n k ih => cases m' <;> first | exact h.elim | exact fun v w => ih v w (h v w)
  | newSig g k ih => cases m' <;> first | exact h.elim | exact fun v => ih v (h v)
  | emit o ins sigs k ih =>
    cases m' <;> first | exact h.elim | exact ⟨h.1, h.2.1, h.2.2.1, fun l => ih l (h.2.2.2 l)⟩
  | assert c ins k ih => cases m' <;> first | exact h.elim | exact ⟨h.1, h.2.1, ih h.2.2⟩
  | setPublic v k ih => cases m' <;> first | exact h.elim | exact ⟨h.1, ih h.2⟩

theorem Same.collect {α β γ : Type} {f : α → Prog γ} {g : β → Prog γ} {l : List α} {m : List β}
    (h : List.Forall₂ (fun x y => Same (f x) (g y)) l m) : Same (Plonk.collect f l) (Plonk.collect g m) := by
  induction h with
  | nil => exact Same.refl _
  | cons h _ ih => exact Same.bind h fun _ => Same.bind ih fun _ => Same.refl _

theorem Circ.layout_eq_iff {s t : Circ} : s.layout = t.layout ↔
    s.vals.length = t.vals.length ∧ s.sigs.length = t.sigs.length ∧ s.gates = t.gates ∧ s.pubs = t.pubs := by
  simp [Circ.layout]

theorem Same.run {α : Type} {m m' : Prog α} (h : Same m m') {s s' : Circ} (hs : s.layout = s'.layout) {x : α} {t : Circ}
    (hr : m.run s = some (x, t)) : ∃ t', m'.run s' = some (x, t') ∧ t.layout = t'.layout := by
  obtain ⟨hv, hg, hga, hp⟩ := Circ.layout_eq_iff.1 hs
  induction m generalizing m' s s' with
  | pure y =>
    cases m' <;> first | exact h.elim | (cases h; cases hr; exact ⟨s', rfl, hs⟩)
  | fail => cases hr
  | newVar v k ih =>
    cases m' <;> first | exact h.elim | skip
    rename_i v' k'
    simp only [Prog.run] at hr ⊢
    rw [← hv]
    exact ih _ (h _) (by simp [Circ.layout, hv, hg, hga, hp]) hr (by simp [hv]) hg hga hp
  | newBool b k ih =>
    cases m' <;> first | exact h.elim | skip
    simp only [Prog.run] at hr ⊢
    rw [← hv]
    exact ih _ (h _) (by simp [Circ.layout, hv, hg, hga, hp]) hr (by simp [hv]) hg (by simp [hga]) hp
  | newPos n k ih =>
    cases m' <;> first | exact h.elim | skip
    simp only [Prog.run] at hr ⊢
    rw [← hv]
    exact ih _ _ (h _ _) (by simp [Circ.layout, hv, hg, hga, hp]) hr (by simp [hv]) hg (by simp [hga]) hp
  | newSig g k ih =>
    cases m' <;> first | exact h.elim | skip
    simp only [Prog.run] at hr ⊢
    rw [← hg]
    exact ih _ (h _) (by simp [Circ.layout, hv, hg, hga, hp]) hr hv (by simp [hg]) hga hp
  | emit o ins sigs k ih =>
    cases m' <;> first | exact h.elim | skip
    obtain ⟨rfl, rfl, rfl, hk⟩ := h
    simp only [Prog.run] at hr ⊢
    rw [← hv, ← hg]
    split at hr
    · rename_i hc
      rw [if_pos hc]
      have hl : (o.eval (ins.map s'.asg.f) (sigs.map s'.asg.s)).length =
          (o.eval (ins.map s.asg.f) (sigs.map s.asg.s)).length := o.eval_length_congr (by simp) (by simp)
      rw [hl]
      exact ih _ (hk _) (by simp [Circ.layout, hv, hg, hga, hp, hl]) hr (by simp [hv, hl]) hg (by simp [hga]) hp
    · cases hr
  | assert c ins k ih =>
    cases m' <;> first | exact h.elim | skip
    obtain ⟨rfl, rfl, hk⟩ := h
    simp only [Prog.run] at hr ⊢
    rw [← hv]
    split at hr
    · rename_i hc
      rw [if_pos hc]
      exact ih hk (by simp [Circ.layout, hv, hg, hga, hp]) hr hv hg (by simp [hga]) hp
    · cases hr
  | setPublic v k ih =>
    cases m' <;> first | exact h.elim | skip
    obtain ⟨rfl, hk⟩ := h
    simp only [Prog.run] at hr ⊢
    rw [← hv]
    split at hr
    · rename_i hc
      rw [if_pos hc]
      exact ih hk (by simp [Circ.layout, hv, hg, hga, hp]) hr hv hg hga (by simp [hp])
    · cases hr

/-! ### When a run succeeds -/

/-- the sizes of a circuit and its public variables -/
structure Sz where
  n : ℕ
  k : ℕ
  pubs : List Var

def Circ.sz (s : Circ) : Sz := ⟨s.vals.length, s.sigs.length, s.pubs⟩

/-- the run succeeds, and the result with the sizes afterwards is in `Q` -/
def Wp {α : Type} : Prog α → Sz → (α → Sz → Prop) → Prop
  | .pure x, z, Q => Q x z
  | .fail, _, _ => False
  | .newVar _ k, z, Q => Wp (k z.n) { z with n := z.n + 1 } Q
  | .newBool _ k, z, Q => Wp (k z.n) { z with n := z.n + 1 } Q
  | .newPos _ k, z, Q => Wp (k z.n (z.n + 1)) { z with n := z.n + 2 } Q
  | .newSig _ k, z, Q => Wp (k z.k) { z with k := z.k + 1 } Q
  | .emit o ins sigs k, z, Q =>
    ((∀ i ∈ ins, i < z.n) ∧ ∀ i ∈ sigs, i < z.k) ∧
      Wp (k (List.range' z.n (o.arity ins.length sigs.length))) { z with n := z.n + o.arity ins.length sigs.length } Q
  | .assert _ ins k, z, Q => (∀ i ∈ ins, i < z.n) ∧ Wp k z Q
  | .setPublic v k, z, Q => v < z.n ∧ Wp k { z with pubs := z.pubs ++ [v] } Q

theorem Wp.run {α : Type} {m : Prog α} {s : Circ} {Q : α → Sz → Prop} (h : Wp m s.sz Q) :
    ∃ x t, m.run s = some (x, t) ∧ Q x t.sz := by
  induction m generalizing s with
  | pure x => exact ⟨x, s, rfl, h⟩
  | fail => exact h.elim
  | newVar v k ih => exact ih _ (by simpa [Wp, Circ.sz] using h)
  | newBool b k ih => exact ih _ (by simpa [Wp, Circ.sz] using h)
  | newPos n k ih => exact ih _ _ (by simpa [Wp, Circ.sz] using h)
  | newSig g k ih => exact ih _ (by simpa [Wp, Circ.sz] using h)
  | emit o ins sigs k ih =>
    obtain ⟨hc, h⟩ := h
    simp only [Prog.run]
    rw [if_pos (by simpa [Circ.sz] using hc)]
    refine ih _ ?_
    simpa [Circ.sz, Op.eval_length] using h
  | assert c ins k ih =>
    obtain ⟨hc, h⟩ := h
    simp only [Prog.run]
    rw [if_pos (by simpa [Circ.sz] using hc)]
    exact ih (by simpa [Circ.sz] using h)
  | setPublic v k ih =>
    obtain ⟨hc, h⟩ := h
    simp only [Prog.run]
    rw [if_pos (by simpa [Circ.sz] using hc)]
    exact ih (by simpa [Circ.sz] using h)

theorem Wp.mono {α : Type} {m : Prog α} {z : Sz} {Q R : α → Sz → Prop} (h : Wp m z Q) (hQ : ∀ x z, Q x z → R x z) :
    Wp m z R := by
  induction m generalizing z with
  | pure x => exact hQ _ _ h
  | fail => exact h
  | newVar v k ih => exact ih _ h
  | newBool b k ih => exact ih _ h
  | newPos n k ih => exact ih _ _ h
  | newSig g k ih => exact ih _ h
  | emit o ins sigs k ih => exact ⟨h.1, ih _ h.2⟩
  | assert c ins k ih => exact ⟨h.1, ih h.2⟩
  | setPublic v k ih => exact ⟨h.1, ih h.2⟩

theorem Wp.bind {α β : Type} {m : Prog α} {f : α → Prog β} {z : Sz} {R : β → Sz → Prop}
    (h : Wp m z fun x z' => Wp (f x) z' R) : Wp (m >>= f) z R := by
  rw [bind_def]
  induction m generalizing z with
  | pure x => exact h
  | fail => exact h
  | newVar v k ih => exact ih _ h
  | newBool b k ih => exact ih _ h
  | newPos n k ih => exact ih _ _ h
  | newSig g k ih => exact ih _ h
  | emit o ins sigs k ih => exact ⟨h.1, ih _ h.2⟩
  | assert c ins k ih => exact ⟨h.1, ih h.2⟩
  | setPublic v k ih => exact ⟨h.1, ih h.2⟩

/-! ### Gates by construction hold for the values that were given -/

/-- a gate whose variables are made to satisfy it -/
def Gate.made : Gate → Bool
  | .assert _ _ => false
  | _ => true

/-- the gate speaks only of existing variables, and holds if it is one by construction -/
def Gate.Good (s : Circ) : Gate → Prop
  | .op o ins sigs outs => (∀ i ∈ ins, i < s.vals.length) ∧ (∀ i ∈ sigs, i < s.sigs.length) ∧
      (∀ i ∈ outs, i < s.vals.length) ∧ Gate.Holds s.asg (.op o ins sigs outs)
  | .bool v => v < s.vals.length ∧ Gate.Holds s.asg (.bool v)
  | .pos l r => l < s.vals.length ∧ r < s.vals.length ∧ Gate.Holds s.asg (.pos l r)
  | .assert _ _ => True

theorem Gate.Good.holds {s : Circ} {g : Gate} (h : g.Good s) (hm : g.made = true) : g.Holds s.asg := by
  cases g <;> simp_all [Gate.Good, Gate.made]

/-- the values of old variables stay -/
theorem asg_f_ext {s t : Circ} (h : s.vals <+: t.vals) {i : ℕ} (hi : i < s.vals.length) : t.asg.f i = s.asg.f i := by
  obtain ⟨l, hl⟩ := h
  simp only [Circ.asg, ← hl]
  rw [List.getD_eq_getElem?_getD, List.getD_eq_getElem?_getD, List.getElem?_append_left hi]

theorem asg_s_ext {s t : Circ} (h : s.sigs <+: t.sigs) {i : ℕ} (hi : i < s.sigs.length) : t.asg.s i = s.asg.s i := by
  obtain ⟨l, hl⟩ := h
  simp only [Circ.asg, ← hl]
  rw [List.getD_eq_getElem?_getD, List.getD_eq_getElem?_getD, List.getElem?_append_left hi]

theorem map_f_ext {s t : Circ} (h : s.vals <+: t.vals) {l : List Var} (hl : ∀ i ∈ l, i < s.vals.length) :
    l.map t.asg.f = l.map s.asg.f := List.map_congr_left fun i hi => asg_f_ext h (hl i hi)

theorem map_s_ext {s t : Circ} (h : s.sigs <+: t.sigs) {l : List Var} (hl : ∀ i ∈ l, i < s.sigs.length) :
    l.map t.asg.s = l.map s.asg.s := List.map_congr_left fun i hi => asg_s_ext h (hl i hi)

theorem Gate.Good.ext {s t : Circ} (hv : s.vals <+: t.vals) (hs : s.sigs <+: t.sigs) {g : Gate} (h : g.Good s) :
    g.Good t := by
  have l1 := hv.length_le
  have l2 := hs.length_le
  cases g with
  | op o ins sigs outs =>
    obtain ⟨a, b, c, d⟩ := h
    refine ⟨fun i hi => lt_of_lt_of_le (a i hi) l1, fun i hi => lt_of_lt_of_le (b i hi) l2,
      fun i hi => lt_of_lt_of_le (c i hi) l1, ?_⟩
    simp only [Gate.Holds] at d ⊢
    rw [map_f_ext hv a, map_f_ext hv c, map_s_ext hs b]
    exact d
  | bool v =>
    obtain ⟨a, b⟩ := h
    refine ⟨lt_of_lt_of_le a l1, ?_⟩
    simp only [Gate.Holds] at b ⊢
    rw [asg_f_ext hv a]
    exact b
  | pos l r =>
    obtain ⟨a, b, c⟩ := h
    refine ⟨lt_of_lt_of_le a l1, lt_of_lt_of_le b l1, ?_⟩
    simp only [Gate.Holds] at c ⊢
    rw [asg_f_ext hv a, asg_f_ext hv b]
    exact c
  | assert c ins => trivial

/-- every gate is good -/
def Circ.Good (s : Circ) : Prop := ∀ g ∈ s.gates, g.Good s

theorem Circ.init_good : Circ.init.Good := by
  intro g hg
  simp only [Circ.init, List.mem_cons, List.not_mem_nil, or_false] at hg
  rcases hg with rfl | rfl <;> simp [Gate.Good, Gate.Holds, Op.eval, Circ.init, Circ.asg]

theorem Circ.Good.snoc {s t : Circ} (h : s.Good) (hv : s.vals <+: t.vals) (hs : s.sigs <+: t.sigs) {g : Gate}
    (hg : g.Good t) (ht : t.gates = s.gates ++ [g]) : t.Good := by
  intro g' hg'
  rw [ht, List.mem_append, List.mem_singleton] at hg'
  rcases hg' with hg' | rfl
  · exact (h g' hg').ext hv hs
  · exact hg

theorem Circ.Good.same {s t : Circ} (h : s.Good) (hv : s.vals <+: t.vals) (hs : s.sigs <+: t.sigs)
    (ht : t.gates = s.gates) : t.Good := fun g hg => (h g (ht ▸ hg)).ext hv hs

theorem boolF_or (b : Bool) : boolF b = 0 ∨ boolF b = 1 := by cases b <;> simp [boolF]

theorem map_range'_append (l new : List F) :
    (List.range' l.length new.length).map (fun i => (l ++ new).getD i 0) = new := by
  apply List.ext_getElem
  · simp
  · intro i h1 h2
    simp only [List.length_map, List.length_range'] at h1
    simp [List.getD_eq_getElem?_getD, h1]

/-- a run keeps the old variables, and good gates stay good -/
theorem run_ext {α : Type} {m : Prog α} {s : Circ} {x : α} {t : Circ} (h : m.run s = some (x, t)) :
    s.vals <+: t.vals ∧ s.sigs <+: t.sigs ∧ s.gates <+: t.gates ∧ s.pubs <+: t.pubs ∧ (s.Good → t.Good) := by
  induction m generalizing s with
  | pure y => cases h; exact ⟨List.prefix_rfl, List.prefix_rfl, List.prefix_rfl, List.prefix_rfl, id⟩
  | fail => cases h
  | newVar v k ih =>
    obtain ⟨a, b, c, d, e⟩ := ih _ h
    exact ⟨(List.prefix_append _ _).trans a, b, c, d,
      fun g => e (g.same (List.prefix_append _ _) List.prefix_rfl rfl)⟩
  | newBool v k ih =>
    obtain ⟨a, b, c, d, e⟩ := ih _ h
    refine ⟨(List.prefix_append _ _).trans a, b, (List.prefix_append _ _).trans c, d,
      fun g => e (g.snoc (List.prefix_append _ _) List.prefix_rfl ?_ rfl)⟩
    refine ⟨by simp, ?_⟩
    simpa [Gate.Holds, Circ.asg] using boolF_or v
  | newPos n k ih =>
    obtain ⟨a, b, c, d, e⟩ := ih _ _ h
    refine ⟨(List.prefix_append _ _).trans a, b, (List.prefix_append _ _).trans c, d,
      fun g => e (g.snoc (List.prefix_append _ _) List.prefix_rfl ?_ rfl)⟩
    refine ⟨by simp, by simp, ?_⟩
    cases n <;> simp [Gate.Holds, Circ.asg, List.getD_eq_getElem?_getD, boolF]
  | newSig g k ih =>
    obtain ⟨a, b, c, d, e⟩ := ih _ h
    exact ⟨a, (List.prefix_append _ _).trans b, c, d,
      fun g => e (g.same List.prefix_rfl (List.prefix_append _ _) rfl)⟩
  | emit o ins sigs k ih =>
    simp only [Prog.run] at h
    split at h
    · rename_i hc
      obtain ⟨a, b, c, d, e⟩ := ih _ h
      refine ⟨(List.prefix_append _ _).trans a, b, (List.prefix_append _ _).trans c, d,
        fun g => e (g.snoc (List.prefix_append _ _) List.prefix_rfl ?_ rfl)⟩
      refine ⟨fun i hi => by simpa using Nat.lt_add_right _ (hc.1 i hi), hc.2, ?_, ?_⟩
      · intro i hi
        rw [List.mem_range'_1] at hi
        simpa using hi.2
      · simp only [Gate.Holds]
        refine (map_range'_append s.vals _).trans ?_
        congr 1
        exact (map_f_ext (List.prefix_append _ _) hc.1).symm
    · cases h
  | assert c ins k ih =>
    simp only [Prog.run] at h
    split at h
    · obtain ⟨a, b, c, d, e⟩ := ih h
      exact ⟨a, b, (List.prefix_append _ _).trans c, d,
        fun g => e (g.snoc (g := .assert _ _) List.prefix_rfl List.prefix_rfl trivial rfl)⟩
    · cases h
  | setPublic v k ih =>
    simp only [Prog.run] at h
    split at h
    · obtain ⟨a, b, c, d, e⟩ := ih h
      exact ⟨a, b, c, (List.prefix_append _ _).trans d, fun g => e (g.same List.prefix_rfl List.prefix_rfl rfl)⟩
    · cases h

/-! ### What the gates say -/

/-- the gates by construction hold -/
def Fun (a : Asg) (l : List Gate) : Prop := ∀ g ∈ l, g.made = true → g.Holds a

/-- the other gates hold -/
def Asserts (a : Asg) (l : List Gate) : Prop := ∀ g ∈ l, g.made = false → g.Holds a

theorem Fun.append {a : Asg} {l m : List Gate} : Fun a (l ++ m) ↔ Fun a l ∧ Fun a m := by
  simp only [Fun, List.mem_append, or_imp, forall_and]

theorem Asserts.append {a : Asg} {l m : List Gate} : Asserts a (l ++ m) ↔ Asserts a l ∧ Asserts a m := by
  simp only [Asserts, List.mem_append, or_imp, forall_and]

theorem holds_iff {a : Asg} {l : List Gate} : (∀ g ∈ l, g.Holds a) ↔ Fun a l ∧ Asserts a l := by
  constructor
  · exact fun h => ⟨fun g hg _ => h g hg, fun g hg _ => h g hg⟩
  · rintro ⟨h1, h2⟩ g hg
    cases hm : g.made
    · exact h2 g hg hm
    · exact h1 g hg hm

/-- For an assignment with the gates by construction, the result is in `Q`, and the other gates hold iff `A`. -/
def Den {α : Type} (a : Asg) (m : Prog α) (Q : α → Prop) (A : Prop) : Prop :=
  ∀ s x t, m.run s = some (x, t) → ∃ gs, t.gates = s.gates ++ gs ∧ (Fun a gs → Q x ∧ (Asserts a gs ↔ A))

section den
variable {a : Asg}

theorem Den.pure {α : Type} {x : α} {Q : α → Prop} (h : Q x) : Den a (Pure.pure x) Q True := by
  intro s y t hr
  cases hr
  exact ⟨[], by simp, fun _ => ⟨h, by simp [Asserts]⟩⟩

theorem Den.bind {α β : Type} {m : Prog α} {f : α → Prog β} {Q : α → Prop} {R : β → Prop} {A B : Prop}
    (h : Den a m Q A) (hf : ∀ x, Q x → Den a (f x) R B) : Den a (m >>= f) R (A ∧ B) := by
  intro s y t hr
  obtain ⟨x, u, h1, h2⟩ := run_bind_some hr
  obtain ⟨g1, e1, q1⟩ := h s x u h1
  by_cases hfun : Fun a g1
  · obtain ⟨hq, ha⟩ := q1 hfun
    obtain ⟨g2, e2, q2⟩ := hf x hq u y t h2
    refine ⟨g1 ++ g2, by rw [e2, e1, List.append_assoc], fun hF => ?_⟩
    obtain ⟨hr, hb⟩ := q2 (Fun.append.1 hF).2
    exact ⟨hr, by rw [Asserts.append, ha, hb]⟩
  · obtain ⟨g2, e2⟩ := (run_ext h2).2.2.1
    exact ⟨g1 ++ g2, by rw [← e2, e1, List.append_assoc], fun hF => (hfun (Fun.append.1 hF).1).elim⟩

theorem Den.mono {α : Type} {m : Prog α} {Q R : α → Prop} {A B : Prop} (h : Den a m Q A) (hQ : ∀ x, Q x → R x)
    (hA : A ↔ B) : Den a m R B := by
  intro s x t hr
  obtain ⟨gs, e, q⟩ := h s x t hr
  exact ⟨gs, e, fun hF => ⟨hQ _ (q hF).1, (q hF).2.trans hA⟩⟩

theorem Den.iff {α : Type} {m : Prog α} {Q : α → Prop} {A B : Prop} (h : Den a m Q A) (hA : A ↔ B) : Den a m Q B :=
  h.mono (fun _ h => h) hA

theorem Den.post {α : Type} {m : Prog α} {Q R : α → Prop} {A : Prop} (h : Den a m Q A) (hQ : ∀ x, Q x → R x) :
    Den a m R A := h.mono hQ Iff.rfl

theorem Den.fail {α : Type} {Q : α → Prop} {A : Prop} : Den a (.fail : Prog α) Q A := by
  intro s x t hr
  cases hr

theorem Den.createVariable (v : F) {Q : Var → Prop} (h : ∀ x, Q x) : Den a (createVariable v) Q True := by
  intro s x t hr
  cases hr
  exact ⟨[], by simp, fun _ => ⟨h _, by simp [Asserts]⟩⟩

theorem Den.createSignature (g : E.Sig) {Q : Var → Prop} (h : ∀ x, Q x) : Den a (createSignature g) Q True := by
  intro s x t hr
  cases hr
  exact ⟨[], by simp, fun _ => ⟨h _, by simp [Asserts]⟩⟩

theorem Den.setVariablePublic (v : Var) : Den a (setVariablePublic v) (fun _ => True) True := by
  intro s x t hr
  simp only [Plonk.setVariablePublic, Prog.run] at hr
  split at hr
  · cases hr
    exact ⟨[], by simp, fun _ => ⟨trivial, by simp [Asserts]⟩⟩
  · cases hr

theorem Den.createBoolean (b : Bool) : Den a (createBoolean b) (fun x => a.f x.v = 0 ∨ a.f x.v = 1) True := by
  intro s x t hr
  cases hr
  refine ⟨[.bool s.vals.length], rfl, fun h => ⟨h _ (List.mem_singleton_self _) rfl, ?_⟩⟩
  simp [Asserts, Gate.made]

theorem Den.newPos {α : Type} (n : NodePos) (k : Var → Var → α) :
    Den a (.newPos n fun l r => .pure (k l r)) (fun x => ∃ l r, x = k l r ∧ Gate.Holds a (.pos l r)) True := by
  intro s x t hr
  cases hr
  refine ⟨[.pos s.vals.length (s.vals.length + 1)], rfl,
    fun h => ⟨⟨_, _, rfl, h _ (List.mem_singleton_self _) rfl⟩, ?_⟩⟩
  simp [Asserts, Gate.made]

theorem Den.emits (o : Op) (ins sigs : List Var) :
    Den a (emits o ins sigs) (fun l => l.map a.f = o.eval (ins.map a.f) (sigs.map a.s)) True := by
  intro s x t hr
  simp only [Plonk.emits, Prog.run] at hr
  split at hr
  · cases hr
    refine ⟨[.op o ins sigs _], rfl, fun h => ⟨h _ (List.mem_singleton_self _) rfl, ?_⟩⟩
    simp [Asserts, Gate.made]
  · cases hr

theorem Den.emit1 (o : Op) (ins sigs : List Var) {v : F} (h : o.eval (ins.map a.f) (sigs.map a.s) = [v]) :
    Den a (emit1 o ins sigs) (fun x => a.f x = v) True := by
  refine ((Den.emits o ins sigs).bind (B := True) fun l hl => ?_).iff (by simp)
  rw [h] at hl
  rcases l with _ | ⟨x, _ | ⟨y, l⟩⟩
  · simp at hl
  · exact Den.pure (by simpa using hl)
  · simp at hl

theorem Den.emitB (o : Op) (ins sigs : List Var) {b : Bool} (h : o.eval (ins.map a.f) (sigs.map a.s) = [boolF b]) :
    Den a (emitB o ins sigs) (fun x => a.f x.v = boolF b) True :=
  ((Den.emit1 o ins sigs h).bind (B := True) fun _ hx => Den.pure hx).iff (by simp)

theorem Den.emitP (o : Op) (ins : List Var) {c : PtV} (h : o.eval (ins.map a.f) [] = [c.1, c.2]) :
    Den a (emitP o ins) (fun x => (a.f x.x, a.f x.y) = c) True := by
  refine ((Den.emits o ins []).bind (B := True) fun l hl => ?_).iff (by simp)
  rw [List.map_nil, h] at hl
  rcases l with _ | ⟨x, _ | ⟨y, _ | ⟨z, l⟩⟩⟩
  · simp at hl
  · simp at hl
  · refine Den.pure ?_
    simp only [List.map_cons, List.map_nil, List.cons.injEq, and_true] at hl
    exact Prod.ext hl.1 hl.2
  · simp at hl

theorem Den.assertG (c : Assertion) (ins : List Var) {A : Prop} (h : c.Holds (ins.map a.f) ↔ A) :
    Den a (assertG c ins) (fun _ => True) A := by
  intro s x t hr
  simp only [Plonk.assertG, Prog.run] at hr
  split at hr
  · cases hr
    refine ⟨[.assert c ins], rfl, fun _ => ⟨trivial, ?_⟩⟩
    rw [← h]
    simp [Asserts, Gate.made, Gate.Holds]
  · cases hr

theorem Den.collect {α β : Type} {f : α → Prog β} {Q : α → β → Prop} :
    ∀ {l : List α}, (∀ x ∈ l, Den a (f x) (Q x) True) → Den a (collect f l) (List.Forall₂ Q l) True
  | [], _ => Den.pure .nil
  | x :: l, h => by
    refine ((h x (by simp)).bind (B := True) fun y hy =>
      ((Den.collect fun x' hx' => h x' (by simp [hx'])).bind (B := True) fun ys hys => ?_).iff (by simp)).iff (by simp)
    exact Den.pure (.cons hy hys)

theorem Den.forEach {α : Type} {f : α → Prog Unit} {A : α → Prop} :
    ∀ {l : List α}, (∀ x ∈ l, Den a (f x) (fun _ => True) (A x)) → Den a (forEach f l) (fun _ => True) (∀ x ∈ l, A x)
  | [], _ => (Den.pure trivial).iff (by simp)
  | x :: l, h =>
    ((h x (by simp)).bind fun _ _ => Den.forEach fun x' hx' => h x' (by simp [hx'])).iff (by simp)

end den

/-! ### The values that were given are read back -/

/-- In every circuit that extends the result, the values satisfy `Q`. -/
def Vals {α : Type} (m : Prog α) (Q : Asg → α → Prop) : Prop :=
  ∀ s x t, m.run s = some (x, t) → ∀ u : Circ, t.vals <+: u.vals → t.sigs <+: u.sigs → Q u.asg x

theorem Vals.pure {α : Type} {x : α} {Q : Asg → α → Prop} (h : ∀ a, Q a x) : Vals (Pure.pure x) Q := by
  intro s y t hr u _ _
  cases hr
  exact h _

theorem Vals.bind {α β : Type} {m : Prog α} {f : α → Prog β} {Q : Asg → α → Prop} {R : Asg → α → β → Prop}
    {P : Asg → β → Prop} (h : Vals m Q) (hf : ∀ x, Vals (f x) fun a => R a x)
    (hP : ∀ a x y, Q a x → R a x y → P a y) : Vals (m >>= f) P := by
  intro s y t hr u hv hs
  obtain ⟨x, w, h1, h2⟩ := run_bind_some hr
  obtain ⟨e1, e2, _⟩ := run_ext h2
  exact hP _ _ _ (h s x w h1 u (e1.trans hv) (e2.trans hs)) (hf x w y t h2 u hv hs)

/-- the usual case: the last call returns a structure of the results -/
theorem Vals.seq {α β : Type} {m : Prog α} {f : α → Prog β} {Q : Asg → α → Prop} {P : Asg → β → Prop}
    (h : Vals m Q) (hf : ∀ x, Vals (f x) fun a y => Q a x → P a y) : Vals (m >>= f) P :=
  h.bind hf fun _ _ _ hq hr => hr hq

theorem Vals.mono {α : Type} {m : Prog α} {Q P : Asg → α → Prop} (h : Vals m Q) (hp : ∀ a x, Q a x → P a x) :
    Vals m P := fun s x t hr u hv hs => hp _ _ (h s x t hr u hv hs)

theorem Vals.createVariable (v : F) : Vals (createVariable v) fun a x => a.f x = v := by
  intro s x t hr u hv hs
  cases hr
  rw [asg_f_ext hv (by simp)]
  simp [Circ.asg]

theorem Vals.createBoolean (b : Bool) : Vals (createBoolean b) fun a x => a.f x.v = boolF b := by
  intro s x t hr u hv hs
  cases hr
  rw [asg_f_ext hv (by simp)]
  simp [Circ.asg]

theorem Vals.createSignature (g : E.Sig) : Vals (createSignature g) fun a x => a.s x = g := by
  intro s x t hr u hv hs
  cases hr
  rw [asg_s_ext hs (by simp)]
  simp [Circ.asg]

theorem Vals.newPos {α : Type} (n : NodePos) (k : Var → Var → α) :
    Vals (.newPos n fun l r => .pure (k l r)) fun a x => ∃ l r, x = k l r ∧ a.f l = boolF (decide (n = .left)) ∧
      a.f r = boolF (decide (n = .right)) := by
  intro s x t hr u hv hs
  cases hr
  refine ⟨_, _, rfl, ?_, ?_⟩
  · rw [asg_f_ext hv (by simp)]
    simp [Circ.asg]
  · rw [asg_f_ext hv (by simp)]
    simp [Circ.asg, List.getD_eq_getElem?_getD]

theorem Vals.setVariablePublic (v : Var) : Vals (setVariablePublic v) fun _ _ => True := fun _ _ _ _ _ _ _ => trivial

theorem Vals.trivial {α : Type} (m : Prog α) : Vals m fun _ _ => True := fun _ _ _ _ _ _ _ => True.intro

theorem Vals.collect {α β : Type} {f : α → Prog β} {Q : Asg → α → β → Prop} (h : ∀ x, Vals (f x) fun a => Q a x) :
    ∀ l : List α, Vals (collect f l) fun a => List.Forall₂ (Q a) l
  | [] => Vals.pure fun _ => .nil
  | x :: l => (h x).seq fun _ => ((Vals.collect h l).seq fun _ => Vals.pure fun _ hys hy => .cons hy hys)

end Cap.Plonk
