import Verif.Lemmas.MatrixAssembler

/-!
C16: histories of calls of `MatrixAssembler` and `VectorAssembler`.
-/
set_option linter.unusedSectionVars false
namespace NuTo
variable {K : Type _} [Field K]
open Assembly

namespace MatrixAssembler

/-- what a call adds to entry `(r, c)` of block `(I, J)`: local entries whose global position is `(r, c)`; dof types that are
not requested (or not numbered) add nothing -/
def Call.adds (I J r c : Nat) : Call K → K
  | .add m n dofTypes =>
    ((availableDofTypes n dofTypes).count I * (availableDofTypes n dofTypes).count J : K) * pairAdds m n (I, J) r c
  | _ => 0

def total (cs : List (Call K)) (I J r c : Nat) : K := (cs.map (Call.adds I J r c)).sum

def Call.isFinish : Call K → Bool
  | .finish => true
  | _ => false

/-- the calls a user expects to see: those since the last `SetZero` or `Resize` -/
def expectedStep (acc : List (Call K)) : Call K → List (Call K)
  | .setZero => []
  | .resize _ => []
  | c => acc ++ [c]
def expected (cs : List (Call K)) : List (Call K) := cs.foldl expectedStep []

/-- the calls the code counts: `SetZero` and `Resize` only take effect after the first `Finish` -/
def countedStep (acc : Bool × List (Call K)) : Call K → Bool × List (Call K)
  | .setZero => if acc.1 then (true, []) else acc
  | .finish => (true, acc.2)
  | .resize _ => acc
  | c => (acc.1, acc.2 ++ [c])
def counted (cs : List (Call K)) : Bool × List (Call K) := cs.foldl countedStep (false, [])

def Call.sized (d : Nat) : Call K → Prop
  | .resize sizes => d ∈ sizes.keys
  | _ => False

/-- the dimension given to block `(I, J)` by the last `Resize` that mentions both -/
def dimsStep (I J : Nat) (acc : Option (Nat × Nat)) : Call K → Option (Nat × Nat)
  | .resize sizes => match sizes.find? I, sizes.find? J with
    | some a, some b => some (a, b)
    | _, _ => acc
  | _ => acc
def dims (cs : List (Call K)) (I J : Nat) : Option (Nat × Nat) := cs.foldl (dimsStep I J) none

/-- exact meaning of the state after a history -/
structure Meaning (cs : List (Call K)) (s : State K) : Prop where
  fin : s.finished = true ↔ ∃ c ∈ cs, Call.isFinish c
  fin' : (counted cs).1 = s.finished
  wf : ∀ p, (blk s.matrix p).WF
  sized : ∀ d, (∃ c ∈ cs, Call.sized d c) → d ∈ dofTypes2 s.matrix
  dim : ∀ I J a b, dims cs I J = some (a, b) → (blk s.matrix (I, J)).rows = a ∧ (blk s.matrix (I, J)).cols = b
  pend : s.finished = false → ∀ I J r c, tsum s.triplets (I, J) r c = total (counted cs).2 I J r c
  done : s.finished = true → ∀ I J, I ∈ dofTypes2 s.matrix → J ∈ dofTypes2 s.matrix →
    (∃ c ∈ cs, Call.sized I c) → (∃ c ∈ cs, Call.sized J c) →
    ∀ r c, (blk s.matrix (I, J)).entry r c = total (counted cs).2 I J r c

theorem total_append (xs ys : List (Call K)) (I J r c : Nat) :
    total (xs ++ ys) I J r c = total xs I J r c + total ys I J r c := by
  simp [total, List.map_append, List.sum_append]

theorem sized_snoc {cs : List (Call K)} {c : Call K} {d : Nat} (hc : ¬ Call.sized d c)
    (h : ∃ x ∈ cs ++ [c], Call.sized d x) : ∃ x ∈ cs, Call.sized d x := by
  obtain ⟨x, hx, hs⟩ := h
  rcases List.mem_append.mp hx with hx | hx
  · exact ⟨x, hx, hs⟩
  · simp at hx; subst hx; exact absurd hs hc

theorem meaning_snoc (cs : List (Call K)) (c : Call K) (s s' : State K) (h : Meaning cs s) (hc : call s c = .ok s') :
    Meaning (cs ++ [c]) s' := by
  have hcount : counted (cs ++ [c]) = countedStep (counted cs) c := by unfold counted; rw [List.foldl_append]; rfl
  have hdims : ∀ I J, dims (cs ++ [c]) I J = dimsStep I J (dims cs I J) c := by
    intro I J; unfold dims; rw [List.foldl_append]; rfl
  cases c with
  | resize sizes =>
    simp only [call] at hc
    split at hc
    · cases hc
    · rename_i hf
      have hf : s.finished = false := by simpa using hf
      obtain ⟨h', e1, e2⟩ := Res.bind_eq_ok hc
      simp only [Res.ok.injEq] at e2
      subst e2
      obtain ⟨r1, r2, r3⟩ := resizeLoop _ e1
      refine ⟨?_, ?_, ?_, ?_, ?_, ?_, ?_⟩
      · rw [h.fin]; simp [Call.isFinish]
      · rw [hcount]; exact h.fin'
      · intro p
        by_cases hp : p ∈ pairs sizes.keys
        · obtain ⟨a, b, _, _, e⟩ := (r3 p).2 hp
          simp only; rw [e]; intro x hx; cases hx
        · simp only; rw [(r3 p).1 hp]; exact h.wf p
      · rintro d ⟨x, hx, hs⟩
        rcases List.mem_append.mp hx with hx | hx
        · exact r1 d (h.sized d ⟨x, hx, hs⟩)
        · simp at hx; subst hx
          exact (r2 (d, d) (mem_pairs.mpr ⟨hs, hs⟩)).1
      · intro I J a b hab
        rw [hdims] at hab
        unfold dimsStep at hab
        simp only at hab ⊢
        by_cases hp : (I, J) ∈ pairs sizes.keys
        · obtain ⟨a', b', h1, h2, e⟩ := (r3 (I, J)).2 hp
          simp only at h1 h2
          rw [h1, h2] at hab
          simp only [Option.some.injEq, Prod.mk.injEq] at hab
          rw [e]; exact ⟨hab.1, hab.2⟩
        · rw [(r3 (I, J)).1 hp]
          apply h.dim I J a b
          rw [← hab]
          cases h1 : OMap.find? sizes I with
          | none => rfl
          | some a' =>
            cases h2 : OMap.find? sizes J with
            | none => rfl
            | some b' =>
              exact absurd (mem_pairs.mpr ⟨OMap.find?_isSome_iff.mp (by rw [h1]; rfl),
                OMap.find?_isSome_iff.mp (by rw [h2]; rfl)⟩) hp
      · intro _ I J r c
        rw [hcount]
        exact h.pend hf I J r c
      · intro hf'
        simp only at hf'
        rw [hf] at hf'; cases hf'
  | add m n dofTypes =>
    have hdimsEq : ∀ I J, dims (cs ++ [.add m n dofTypes]) I J = dims cs I J := fun I J => hdims I J
    have hcnt : ∀ I J, ((pairs (availableDofTypes n dofTypes)).count (I, J) : K) =
        ((availableDofTypes n dofTypes).count I * (availableDofTypes n dofTypes).count J : K) := by
      intro I J; rw [count_pairs]; push_cast; rfl
    simp only [call] at hc
    split at hc
    · rename_i hf
      obtain ⟨h', e1, e2⟩ := Res.bind_eq_ok hc
      simp only [Res.ok.injEq] at e2
      subst e2
      have key := addLoopMatrix _ e1
      refine ⟨?_, ?_, ?_, ?_, ?_, ?_, ?_⟩
      · rw [h.fin]; simp [Call.isFinish]
      · rw [hcount]; exact h.fin'
      · intro p; exact (key p).2.2.1 (h.wf p)
      · intro d hd
        exact (key (0, 0)).2.2.2.1 d (h.sized d (sized_snoc (by simp [Call.sized]) hd))
      · intro I J a b hab
        rw [hdimsEq] at hab
        rw [(key (I, J)).1, (key (I, J)).2.1]
        exact h.dim I J a b hab
      · intro hf'
        simp only at hf'
        rw [hf] at hf'; cases hf'
      · intro _ I J _ _ hI hJ r c
        have hI' := sized_snoc (by simp [Call.sized]) hI
        have hJ' := sized_snoc (by simp [Call.sized]) hJ
        rw [(key (I, J)).2.2.2.2 r c, h.done hf I J (h.sized I hI') (h.sized J hJ') hI' hJ', hcount]
        simp only [countedStep]
        rw [total_append, hcnt]
        simp [total, Call.adds]
    · rename_i hf
      obtain ⟨h', e1, e2⟩ := Res.bind_eq_ok hc
      simp only [Res.ok.injEq] at e2
      subst e2
      have key := addLoopTriplets _ e1
      refine ⟨?_, ?_, h.wf, ?_, ?_, ?_, ?_⟩
      · rw [h.fin]; simp [Call.isFinish]
      · rw [hcount]; exact h.fin'
      · intro d hd
        exact h.sized d (sized_snoc (by simp [Call.sized]) hd)
      · intro I J a b hab
        rw [hdimsEq] at hab
        exact h.dim I J a b hab
      · intro hf' I J r c
        simp only
        rw [key, h.pend (by simpa using hf), hcount]
        simp only [countedStep]
        rw [total_append, hcnt]
        simp [total, Call.adds]
      · intro hf'
        exact absurd hf' hf
  | setZero =>
    simp only [call] at hc
    simp only [Res.ok.injEq] at hc
    subst hc
    have key := setZeroLoop (pairs (dofTypes2 s.matrix)) s.matrix
    refine ⟨?_, ?_, ?_, ?_, ?_, ?_, ?_⟩
    · rw [h.fin]; simp [Call.isFinish]
    · rw [hcount]; unfold countedStep; simp only
      cases hf : s.finished <;> simp [h.fin', hf]
    · intro p
      obtain ⟨k1, k2, k3⟩ := key p
      intro x hx
      simp only at hx ⊢
      rw [k3] at hx
      rw [k1, k2]
      split at hx
      · cases hx
      · exact h.wf p x hx
    · intro d hd
      exact setZeroLoop_types _ _ d (h.sized d (sized_snoc (by simp [Call.sized]) hd))
    · intro I J a b hab
      rw [hdims] at hab
      simp only
      rw [(key (I, J)).1, (key (I, J)).2.1]
      exact h.dim I J a b hab
    · intro hf I J r c
      simp only at hf ⊢
      rw [hcount, countedStep, h.fin', hf]
      exact h.pend hf I J r c
    · intro hf I J _ _ hI hJ r c
      simp only at hf ⊢
      have hI' := h.sized I (sized_snoc (by simp [Call.sized]) hI)
      have hJ' := h.sized J (sized_snoc (by simp [Call.sized]) hJ)
      rw [hcount, countedStep, h.fin', hf]
      unfold SpMat.entry
      rw [(key (I, J)).2.2, if_pos (mem_pairs.mpr ⟨hI', hJ'⟩)]
      simp [total]
  | finish =>
    simp only [call] at hc
    split at hc
    · rename_i hf
      simp only [Res.ok.injEq] at hc
      subst hc
      refine ⟨?_, ?_, h.wf, ?_, ?_, ?_, ?_⟩
      · rw [hf]; simp [Call.isFinish]
      · rw [hcount]; simp [countedStep, hf]
      · intro d hd
        exact h.sized d (sized_snoc (by simp [Call.sized]) hd)
      · intro I J a b hab
        rw [hdims] at hab
        exact h.dim I J a b hab
      · intro hf'; rw [hf] at hf'; cases hf'
      · intro _ I J h1 h2 hI hJ r c
        rw [hcount]
        exact h.done hf I J h1 h2 (sized_snoc (by simp [Call.sized]) hI) (sized_snoc (by simp [Call.sized]) hJ) r c
    · rename_i hf
      obtain ⟨⟨t', h'⟩, e1, e2⟩ := Res.bind_eq_ok hc
      simp only [Res.ok.injEq] at e2
      subst e2
      obtain ⟨k0, key⟩ := finishLoop _ (nodup_pairs (nodup_dofTypes2 s.matrix)) e1
      simp only at k0 key
      refine ⟨?_, ?_, ?_, ?_, ?_, ?_, ?_⟩
      · simp [Call.isFinish]
      · rw [hcount]; rfl
      · intro p; exact (key p).2.2.1 (h.wf p)
      · intro d hd
        exact k0 d (h.sized d (sized_snoc (by simp [Call.sized]) hd))
      · intro I J a b hab
        rw [hdims] at hab
        simp only
        rw [(key (I, J)).1, (key (I, J)).2.1]
        exact h.dim I J a b hab
      · intro hf'; cases hf'
      · intro _ I J _ _ hI hJ r c
        have hI' := h.sized I (sized_snoc (by simp [Call.sized]) hI)
        have hJ' := h.sized J (sized_snoc (by simp [Call.sized]) hJ)
        simp only
        rw [(key (I, J)).2.2.2, if_pos (mem_pairs.mpr ⟨hI', hJ'⟩), h.pend (by simpa using hf), hcount]
        rfl

theorem meaning (cs : List (Call K)) : ∀ s, run cs = .ok s → Meaning cs s := by
  induction cs using List.reverseRecOn with
  | nil =>
    intro s h
    simp only [run, Res.foldlM_nil, Res.ok.injEq] at h
    subst h
    refine ⟨by simp [init], rfl, ?_, by simp, by simp [dims], ?_, by simp [init]⟩
    · intro p x hx; cases hx
    · intro _ I J r c; simp [init, tsum, OMap.find?, total, counted]
  | append_singleton cs c ih =>
    intro s h
    unfold run at h
    rw [Res.foldlM_append] at h
    obtain ⟨s1, h1, h2⟩ := Res.bind_eq_ok h
    simp only [Res.foldlM_cons] at h2
    obtain ⟨s2, h3, h4⟩ := Res.bind_eq_ok h2
    simp only [Res.foldlM_nil, Res.ok.injEq] at h4
    subst h4
    exact meaning_snoc cs c s1 s2 (ih s1 h1) h3

end MatrixAssembler
open MatrixAssembler

/-- C16, exact law for every history with a defined outcome: `Get` succeeds iff `Finish` was called, every block between sized dof
types has the dimension of the last `Resize`, and its entries are the sums of the *counted* `Add` calls: all of them, except
that a `SetZero` after the first `Finish` forgets the earlier ones.
Missing for the full claim: `C16_setZero_counterexample`. -/
theorem C16_matrix_history_partial (cs : List (MatrixAssembler.Call K)) (s : State K) (h : run cs = .ok s) :
    ((∃ c ∈ cs, Call.isFinish c) → ∃ m, MatrixAssembler.get s = .ok m ∧ ∀ I J, (∃ c ∈ cs, Call.sized I c) → (∃ c ∈ cs, Call.sized J c) →
      (∀ a b, dims cs I J = some (a, b) → (blk m (I, J)).rows = a ∧ (blk m (I, J)).cols = b) ∧ (blk m (I, J)).WF ∧
      ∀ r c, (blk m (I, J)).entry r c = total (counted cs).2 I J r c) ∧
    ((¬ ∃ c ∈ cs, Call.isFinish c) → MatrixAssembler.get s = .throw) := by
  have hm := meaning cs s h
  constructor
  · intro hf
    have hf' := hm.fin.mpr hf
    refine ⟨s.matrix, by unfold MatrixAssembler.get; rw [if_pos hf'], ?_⟩
    intro I J hI hJ
    exact ⟨fun a b => hm.dim I J a b, hm.wf _, hm.done hf' I J (hm.sized I hI) (hm.sized J hJ) hI hJ⟩
  · intro hf
    unfold MatrixAssembler.get
    rw [if_neg (fun h => hf (hm.fin.mp h))]

/-- histories in which nothing is pending when `SetZero`/`Resize` is called before the first `Finish` -/
def CleanHistory (cs : List (MatrixAssembler.Call K)) : Prop :=
  ∃ pre adds post, cs = pre ++ adds ++ Call.finish :: post ∧
    (∀ c ∈ pre, (∃ z, c = .resize z) ∨ c = .setZero) ∧ (∀ c ∈ adds, ∃ m n d, c = Call.add m n d)

/-- C16 as a user expects it, for clean histories: after `Finish` the matrix is the sum of the `Add` calls since the last
`SetZero`. -/
theorem C16_matrix_clean_partial (cs : List (MatrixAssembler.Call K)) (s : State K) (h : run cs = .ok s)
    (hc : CleanHistory cs) : ∃ m, MatrixAssembler.get s = .ok m ∧ ∀ I J, (∃ c ∈ cs, Call.sized I c) → (∃ c ∈ cs, Call.sized J c) →
      ∀ r c, (blk m (I, J)).entry r c = total (expected cs) I J r c := by
  obtain ⟨pre, adds, post, rfl, hpre, hadds⟩ := hc
  obtain ⟨hg, _⟩ := C16_matrix_history_partial _ s h
  obtain ⟨m, h1, h2⟩ := hg ⟨.finish, by simp, rfl⟩
  refine ⟨m, h1, ?_⟩
  intro I J hI hJ r c
  rw [(h2 I J hI hJ).2.2]
  have a1 : ∀ pre : List (Call K), (∀ c ∈ pre, (∃ z, c = .resize z) ∨ c = .setZero) →
      pre.foldl countedStep (false, []) = (false, []) ∧ pre.foldl expectedStep [] = [] := by
    intro pre
    induction pre with
    | nil => intro _; exact ⟨rfl, rfl⟩
    | cons x pre ih =>
      intro hp
      obtain ⟨i1, i2⟩ := ih (fun c hc => hp c (by simp [hc]))
      rcases hp x (by simp) with ⟨z, rfl⟩ | rfl <;> exact ⟨i1, i2⟩
  have a2 : ∀ adds : List (Call K), (∀ c ∈ adds, ∃ m n d, c = Call.add m n d) → ∀ l,
      adds.foldl countedStep (false, l) = (false, l ++ adds) ∧ adds.foldl expectedStep l = l ++ adds := by
    intro adds
    induction adds with
    | nil => intro _ l; simp
    | cons x adds ih =>
      intro hp l
      obtain ⟨i1, i2⟩ := ih (fun c hc => hp c (by simp [hc])) (l ++ [x])
      obtain ⟨m, n, d, rfl⟩ := hp x (by simp)
      simp only [List.foldl_cons, countedStep, expectedStep]
      rw [i1, i2]; simp
  have a3 : ∀ post : List (Call K), (∀ c ∈ post, ∀ z, c ≠ .resize z) → ∀ L E, total L I J r c = total E I J r c →
      total (post.foldl countedStep (true, L)).2 I J r c = total (post.foldl expectedStep E) I J r c := by
    intro post
    induction post with
    | nil => intro _ L E h; exact h
    | cons x post ih =>
      intro hp L E hLE
      have ih := ih (fun c hc => hp c (by simp [hc]))
      cases x with
      | resize z => exact absurd rfl (hp _ (by simp) z)
      | add m n d =>
        exact ih (L ++ [_]) (E ++ [_]) (by rw [total_append, total_append, hLE])
      | setZero => exact ih [] [] rfl
      | finish =>
        apply ih L (E ++ [_])
        rw [total_append, hLE]; simp [total, Call.adds]
  have a4 : ∀ c ∈ post, ∀ z, c ≠ Call.resize z := by
    rintro c hcm z rfl
    obtain ⟨b1, b2, rfl⟩ := List.append_of_mem hcm
    have hsplit : pre ++ adds ++ Call.finish :: (b1 ++ Call.resize z :: b2) =
        (pre ++ adds ++ Call.finish :: b1) ++ (Call.resize z :: b2) := by simp
    rw [hsplit] at h
    unfold run at h
    rw [Res.foldlM_append] at h
    obtain ⟨s1, e1, e2⟩ := Res.bind_eq_ok h
    have hf := (meaning _ s1 e1).fin.mpr ⟨.finish, by simp, rfl⟩
    rw [Res.foldlM_cons] at e2
    obtain ⟨s2, e3, _⟩ := Res.bind_eq_ok e2
    simp only [call] at e3
    rw [if_pos hf] at e3
    cases e3
  obtain ⟨p1, p2⟩ := a1 pre hpre
  obtain ⟨q1, q2⟩ := a2 adds hadds []
  unfold counted expected
  rw [List.foldl_append, List.foldl_append, p1, q1, List.foldl_append, List.foldl_append, p2, q2]
  simp only [List.foldl_cons, countedStep, expectedStep, List.nil_append]
  apply a3 post a4
  rw [total_append]; simp [total, Call.adds]

/-- C16: `Resize` after `Finish` raises. -/
theorem C16_resize_after_finish (cs : List (MatrixAssembler.Call K)) (s : State K) (h : run cs = .ok s)
    (hf : ∃ c ∈ cs, Call.isFinish c) (z : OMap Nat Nat) : run (cs ++ [.resize z]) = .throw := by
  have hf := (meaning _ s h).fin.mpr hf
  unfold run at h ⊢
  rw [Res.foldlM_append, h]
  simp [call, hf]

/-- C16: a second `Finish` changes nothing. -/
theorem C16_finish_idempotent (cs : List (MatrixAssembler.Call K)) (s : State K) (h : run cs = .ok s)
    (hf : ∃ c ∈ cs, Call.isFinish c) : run (cs ++ [.finish]) = .ok s := by
  have hf := (meaning _ s h).fin.mpr hf
  unfold run at h ⊢
  rw [Res.foldlM_append, h]
  simp [call, hf]

def exAdd (x : ℚ) : MatrixAssembler.Call ℚ := .add [(toLex (0, 0), ⟨1, 1, fun _ _ => x⟩)] [(0, [1])] []

/-- the matrix a user gets at position (1, 1) -/
def exEntry (cs : List (MatrixAssembler.Call ℚ)) : Res ℚ :=
  (run cs).bind fun s => (MatrixAssembler.get s).bind fun m => .ok ((blk m (0, 0)).entry 1 1)

/-- C16 is false as stated: `SetZero` before `Finish` does not forget the pending `Add` calls, neither does `Resize`. -/
theorem C16_setZero_counterexample :
    exEntry [.resize [(0, 2)], exAdd 5, .setZero, exAdd 1, .finish] = .ok 6 ∧
    total (expected [.resize [(0, 2)], exAdd 5, .setZero, exAdd 1, .finish]) 0 0 1 1 = 1 ∧
    exEntry [.resize [(0, 2)], exAdd 5, .resize [(0, 2)], exAdd 1, .finish] = .ok 6 := by
  refine ⟨?_, ?_, ?_⟩ <;> decide +kernel

/-- a clean history with several rounds -/
example : CleanHistory [.resize [(0, 2)], .setZero, exAdd 5, exAdd 2, .finish, exAdd 1, .setZero, exAdd 4, .finish] ∧
    exEntry [.resize [(0, 2)], .setZero, exAdd 5, exAdd 2, .finish, exAdd 1, .setZero, exAdd 4, .finish] = .ok 4 ∧
    exEntry [.resize [(0, 2)], .setZero, exAdd 5, exAdd 2, .finish, exAdd 1] = .ok 8 := by
  refine ⟨⟨[.resize [(0, 2)], .setZero], [exAdd 5, exAdd 2], [exAdd 1, .setZero, exAdd 4, .finish], rfl, ?_, ?_⟩, ?_, ?_⟩
  · simp
  · simp [exAdd]
  · decide +kernel
  · decide +kernel

/-- C16: which dof types a call of `Add` adds: all that are numbered if no dof types are given, otherwise those that are both
numbered and given; each once. -/
theorem C16_requested (n : OMap Nat (List Int)) (hn : n.Sorted) (dofTypes : List Nat) (hd : dofTypes.Nodup) (d : Nat) :
    (availableDofTypes n dofTypes).count d =
      if (n.find? d).isSome ∧ (dofTypes = [] ∨ d ∈ dofTypes) then 1 else 0 := by
  have h1 : n.keys.count d = if (n.find? d).isSome then 1 else 0 := by
    simp only [OMap.find?_isSome_iff, (OMap.nodup_keys hn).count]
  unfold availableDofTypes
  by_cases h : dofTypes = []
  · simp [h, h1]
  · rw [if_neg h, count_dofIntersection, h1, hd.count]
    by_cases h2 : (n.find? d).isSome <;> by_cases h3 : d ∈ dofTypes <;> simp [h, h2, h3]

/-- Two numbered dof types: both without a request, one on request. -/
example : (availableDofTypes [(0, [0]), (1, [1])] []).count 1 = 1 ∧ (availableDofTypes [(0, [0]), (1, [1])] [0]).count 1 = 0 := by
  constructor
  · rw [C16_requested _ (by simp [OMap.Sorted]) _ (by simp)]
    simp [OMap.find?]
  · rw [C16_requested _ (by simp [OMap.Sorted]) _ (by simp)]
    simp

/-! ### VectorAssembler -/
namespace VectorAssembler

/-- what a call adds to entry `i` of dof type `d` -/
def Call.adds (d i : Nat) : Call K → K
  | .add v n dofTypes => ((availableDofTypes n dofTypes).count d : K) * match n.find? d, v.find? d with
    | some nums, some vals => scatter nums vals i
    | _, _ => 0
  | _ => 0

/-- the calls since the last `SetZero`, or the last `Resize` of this dof type -/
def expectedStep (d : Nat) (acc : List (Call K)) : Call K → List (Call K)
  | .setZero => []
  | .resize z => if d ∈ z.keys then [] else acc
  | c => acc ++ [c]
def expected (d : Nat) (cs : List (Call K)) : List (Call K) := cs.foldl (expectedStep d) []

/-- the size given to a dof type by the last `Resize` that mentions it (the last entry wins if it mentions it twice, which a
`std::map` cannot) -/
def sizeStep (d : Nat) (acc : Option Nat) : Call K → Option Nat
  | .resize z => match z.find? d with
    | some n => some n
    | none => acc
  | _ => acc
def size (d : Nat) (cs : List (Call K)) : Option Nat := cs.foldl (sizeStep d) none

theorem addLoop {v : DofVec K} {n : OMap Nat (List Int)} (L : List Nat) : ∀ {s s' : DofVec K},
    Res.foldlM (addStep v n) s L = .ok s' → ∀ d,
      (s'.find? d).map List.length = (s.find? d).map List.length ∧
      ∀ i, ((s'.find? d).getD []).getD i 0 = ((s.find? d).getD []).getD i 0 +
        (L.count d : K) * match n.find? d, v.find? d with
          | some nums, some vals => scatter nums vals i
          | _, _ => 0 := by
  induction L with
  | nil => intro s s' h d; simp only [Res.foldlM_nil, Res.ok.injEq] at h; subst h; simp
  | cons e L ih =>
    intro s s' h d
    rw [Res.foldlM_cons] at h
    obtain ⟨s1, h1, h2⟩ := Res.bind_eq_ok h
    obtain ⟨i1, i2⟩ := ih h2 d
    unfold addStep at h1
    obtain ⟨nums, hn, h1⟩ := Res.bind_eq_ok h1
    have hn := OMap.at'_eq_ok hn
    have hstep : (s1.find? d).map List.length = (s.find? d).map List.length ∧
        ∀ i, ((s1.find? d).getD []).getD i 0 = ((s.find? d).getD []).getD i 0 + if d = e then (match n.find? d, v.find? d with
          | some nums, some vals => scatter nums vals i
          | _, _ => 0) else 0 := by
      split at h1
      · rename_i h0
        simp only [Res.ok.injEq] at h1
        subst h1
        subst h0
        refine ⟨rfl, ?_⟩
        intro i
        split
        · rename_i hde
          subst hde
          rw [hn]
          cases v.find? d <;> simp [scatter]
        · simp
      · rename_i h0
        obtain ⟨vals, hv, h1⟩ := Res.bind_eq_ok h1
        obtain ⟨x, hx, h1⟩ := Res.bind_eq_ok h1
        simp only [Res.ok.injEq] at h1
        subst h1
        obtain ⟨x1, x2⟩ := accumulate_eq_ok hx
        rw [OMap.find?_set]
        by_cases hde : d = e
        · subst hde
          simp only [if_true, Option.getD_some, Option.map_some]
          rw [hn, OMap.at'_eq_ok hv]
          constructor
          · cases hs : s.find? d with
            | none =>
              rw [hs] at hx
              exfalso
              obtain ⟨a, l, rfl⟩ := List.exists_cons_of_ne_nil h0
              unfold accumulate at hx
              rw [List.length_cons, List.range_succ_eq_map, Res.foldlM_cons] at hx
              obtain ⟨y, hy, _⟩ := Res.bind_eq_ok hx
              unfold accStep at hy
              split at hy
              · obtain ⟨hc, _⟩ := Res.require_eq_ok hy
                simp at hc
              · cases hy
            | some w => rw [hs] at x1; simp only [Option.map_some]; rw [x1]; rfl
          · intro i
            exact x2 i
        · simp [hde]
    refine ⟨i1.trans hstep.1, ?_⟩
    intro i
    rw [i2, hstep.2, List.count_cons]
    by_cases hde : d = e
    · subst hde; simp; ring
    · have : ¬ e = d := fun h => hde h.symm
      simp [hde, this]

theorem resizeLoop (z : OMap Nat Nat) : z.Sorted → ∀ (s : DofVec K) d, OMap.find? (z.foldl resizeStep s) d =
    match z.find? d with
    | some n => some (List.replicate n 0)
    | none => s.find? d := by
  induction z with
  | nil => intro _ s d; rfl
  | cons e z ih =>
    intro hz s d
    rw [List.foldl_cons, ih (List.Pairwise.of_cons hz)]
    obtain ⟨k, n⟩ := e
    by_cases hd : d = k
    · subst hd
      have : OMap.find? z d = none := OMap.find?_eq_none_of_lt (fun x hx => (List.pairwise_cons.mp hz).1 x hx)
      rw [this]
      simp [OMap.find?, resizeStep, OMap.find?_set]
    · simp only [OMap.find?, if_neg hd, resizeStep]
      rw [OMap.find?_set, if_neg hd]

end VectorAssembler

/-- C16, `VectorAssembler`: for every history with a defined outcome, `Get()` returns blocks of the last size given, whose
entries are the sums of the `Add` calls since the last reset. -/
theorem C16_vector_history (cs : List (VectorAssembler.Call K))
    (hz : ∀ z, VectorAssembler.Call.resize z ∈ cs → z.Sorted) (s : DofVec K) (h : VectorAssembler.run cs = .ok s) (d : Nat) :
    (s.find? d).map List.length = VectorAssembler.size d cs ∧
    ∀ i, ((s.find? d).getD []).getD i 0 =
      ((VectorAssembler.expected d cs).map (VectorAssembler.Call.adds d i)).sum := by
  induction cs using List.reverseRecOn generalizing s with
  | nil =>
    simp only [VectorAssembler.run, Res.foldlM_nil, Res.ok.injEq] at h
    subst h
    simp [OMap.find?, VectorAssembler.size, VectorAssembler.expected]
  | append_singleton cs c ih =>
    unfold VectorAssembler.run at h
    rw [Res.foldlM_append] at h
    obtain ⟨s1, h1, h2⟩ := Res.bind_eq_ok h
    simp only [Res.foldlM_cons] at h2
    obtain ⟨s2, h3, h4⟩ := Res.bind_eq_ok h2
    simp only [Res.foldlM_nil, Res.ok.injEq] at h4
    subst h4
    obtain ⟨i1, i2⟩ := ih (fun z hm => hz z (by simp [hm])) s1 h1
    have he : VectorAssembler.expected d (cs ++ [c]) = VectorAssembler.expectedStep d (VectorAssembler.expected d cs) c := by
      unfold VectorAssembler.expected; rw [List.foldl_append]; rfl
    have hsz : VectorAssembler.size d (cs ++ [c]) = VectorAssembler.sizeStep d (VectorAssembler.size d cs) c := by
      unfold VectorAssembler.size; rw [List.foldl_append]; rfl
    rw [he, hsz]
    cases c with
    | resize z =>
      simp only [VectorAssembler.call, Res.ok.injEq] at h3
      subst h3
      rw [VectorAssembler.resizeLoop z (hz z (by simp))]
      simp only [VectorAssembler.expectedStep, VectorAssembler.sizeStep]
      cases hf : OMap.find? z d with
      | none =>
        have : d ∉ z.keys := fun hm => by
          have := OMap.find?_isSome_iff.mpr hm
          rw [hf] at this; cases this
        rw [if_neg this]
        exact ⟨i1, i2⟩
      | some n =>
        have : d ∈ z.keys := OMap.find?_isSome_iff.mp (by rw [hf]; rfl)
        rw [if_pos this]
        refine ⟨by simp, ?_⟩
        intro i
        simp [List.getD_eq_getElem?_getD, List.getElem?_replicate]
        split <;> rfl
    | add v n dofTypes =>
      obtain ⟨a1, a2⟩ := VectorAssembler.addLoop _ h3 d
      refine ⟨a1.trans i1, ?_⟩
      intro i
      rw [a2, i2]
      simp [VectorAssembler.expectedStep, VectorAssembler.Call.adds]
    | setZero =>
      simp only [VectorAssembler.call, Res.ok.injEq] at h3
      subst h3
      have hf : OMap.find? (DofVec.setZero s1) d = (s1.find? d).map fun v => v.map fun _ => 0 := by
        unfold DofVec.setZero
        exact OMap.find?_map _ _ _
      rw [hf]
      refine ⟨?_, ?_⟩
      · refine Eq.trans ?_ i1
        cases s1.find? d <;> simp
      · intro i
        cases s1.find? d with
        | none => simp [VectorAssembler.expectedStep]
        | some w =>
          simp [VectorAssembler.expectedStep, List.getD_eq_getElem?_getD, List.getElem?_replicate]
          split <;> rfl

example : (VectorAssembler.run [.resize [(0, 3)], .add [(0, [5, 7])] [(0, [2, 0])] [], .setZero,
    .add [(0, [1, 2])] [(0, [2, 1])] [0]] : Res (DofVec ℚ)) = .ok [(0, [0, 2, 1])] := by decide +kernel

end NuTo
