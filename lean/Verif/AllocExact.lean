import Verif.AllocProps
set_option linter.unusedSimpArgs false
set_option linter.unusedVariables false
/-!
# C182: what the platform allocator does with every request, in every history
-/
namespace Verif.AllocProps
open AllocModel

/-! ## Specification -/

/-- A size rounded up to a multiple of eight. -/
def up8 (n : Nat) : Nat := (n + 7) / 8 * 8

/-- The bytes taken by blocks, each rounded up to a multiple of eight. -/
def taken : List Block → Nat
  | [] => 0
  | b :: bs => up8 b.2 + taken bs

/-- Histories in which `malloc`, when it gives the arena at all, gives the 32767 bytes asked for. Requests may have any size. -/
def Arena : Op → Prop
  | .setup (some g) => g.length = 32767
  | _ => True

/-- The bytes of the arena with a block cleared. -/
def cleared (bytes : List Nat) (o n : Nat) : List Nat := bytes.take o ++ List.replicate n 0 ++ bytes.drop (o + n)

/-! ## Proof -/

/-- What an allocation does after setup, in a state that satisfies the invariant, for every size. -/
theorem new_every {w : World} (h : Inv w) (hs : w.st.setup = true) (n : Nat) (hp : Bool) :
    AllocModel.new w.st n hp =
      if 32767 < (w.st.cur + up8 n) % 4294967296 then .ok (w.st, .null)
      else if w.st.cur + up8 n ≤ 32767 then .ok (after w.st n, .arena w.st.cur) else .ub := by
  have hl := h.le
  have hlen := h.len hs
  have ha : (w.st.used + align8 (n % 4294967296)) % 4294967296 = (w.st.cur + up8 n) % 4294967296 := by
    rw [h.eq]; unfold align8 up8; omega
  have hu := h.eq
  unfold AllocModel.new
  rw [hs, if_neg (by simp)]
  simp only []
  rw [ha]
  by_cases c : 32767 < (w.st.cur + up8 n) % 4294967296
  · rw [if_pos c, if_pos (by unfold memorySize; omega)]
  · rw [if_neg c, if_neg (by unfold memorySize; omega)]
    by_cases c2 : w.st.cur + up8 n ≤ 32767
    · have e8 : align8 (n % 4294967296) = up8 n := by unfold align8; unfold up8 at *; omega
      rw [if_pos c2, e8, Nat.mod_eq_of_lt (by omega)]
      unfold zero
      rw [if_pos (by unfold up8 at c2; omega), Res.bind_ok]
      simp only [after, hs, up8]
    · rw [if_neg c2]
      unfold zero
      rw [if_neg (by unfold up8 at *; omega)]
      rfl

/-- The invariant, with what is used being what the blocks take. -/
structure Full (w : World) : Prop where
  inv : Inv w
  sum : w.st.setup = true → w.st.cur = taken w.live

theorem full_step {w w' : World} {o : Op} (h : Full w) (hs : Arena o) (e : step w o = .ok w') : Full w' := by
  cases o with
  | new n hp =>
    cases hset : w.st.setup with
    | false =>
      have hs1 : w'.st.setup = false := by
        simp only [step] at e
        unfold AllocModel.new at e
        rw [if_pos hset] at e
        cases hp with
        | false => cases e
        | true => rw [if_pos rfl, Res.bind_ok, Res.ok.injEq] at e; subst e; exact hset
      have hi : Inv w' := by
        simp only [step] at e
        unfold AllocModel.new at e
        rw [if_pos hset] at e
        cases hp with
        | false => cases e
        | true =>
          rw [if_pos rfl, Res.bind_ok, Res.ok.injEq] at e; subst e
          exact ⟨h.inv.eq, h.inv.al, h.inv.le, h.inv.len, h.inv.blocks, h.inv.pw, h.inv.nolive⟩
      exact ⟨hi, fun c => by rw [hs1] at c; cases c⟩
    | true =>
      have hn := new_every h.inv hset n hp
      by_cases c : 32767 < (w.st.cur + up8 n) % 4294967296
      · rw [if_pos c] at hn
        simp only [step, hn, Res.bind_ok, Res.ok.injEq] at e
        subst e
        exact h
      · rw [if_neg c] at hn
        by_cases c2 : w.st.cur + up8 n ≤ 32767
        · have hsn : Sane (.new n hp) := by show n ≤ 0xFFFF8000; unfold up8 at c2; omega
          refine ⟨inv_step h.inv hsn e, fun _ => ?_⟩
          rw [if_pos c2] at hn
          simp only [step, hn, Res.bind_ok, Res.ok.injEq] at e
          subst e
          have := h.sum hset
          show w.st.cur + (n + 7) / 8 * 8 = up8 n + taken w.live
          unfold up8; omega
        · rw [if_neg c2] at hn
          simp only [step, hn] at e
          cases e
  | delete =>
    refine ⟨inv_step (o := .delete) h.inv trivial e, ?_⟩
    simp only [step, Res.ok.injEq] at e; subst e
    exact h.sum
  | store off v =>
    refine ⟨inv_step (o := .store off v) h.inv trivial e, ?_⟩
    simp only [step, AllocModel.store] at e
    split at e
    · rw [Res.bind_ok, Res.ok.injEq] at e; subst e; exact h.sum
    · cases e
  | setup g =>
    refine ⟨inv_step h.inv (by cases g with | none => exact trivial | some g => exact hs) e, ?_⟩
    simp only [step, Res.ok.injEq] at e; subst e
    intro _
    show (AllocModel.setup w.st g).cur = 0
    unfold AllocModel.setup
    cases w.st.setup <;> cases g <;> rfl

theorem full_run {ops : List Op} {w w' : World} (h : Full w) (hs : ∀ o ∈ ops, Arena o) (e : run w ops = .ok w') : Full w' := by
  induction ops generalizing w with
  | nil => simp only [run, Res.ok.injEq] at e; subst e; exact h
  | cons o os ih =>
    simp only [run, Res.bind_eq_ok] at e
    obtain ⟨w1, e1, e2⟩ := e
    exact ih (full_step h (hs o (List.mem_cons_self ..)) e1) (fun x hx => hs x (List.mem_cons_of_mem _ hx)) e2

theorem full_start : Full start := ⟨inv_start, fun h => by cases h⟩

/-! ## C182 -/

/-- **C182**: after any history of allocations of any size, frees, stores and setups, with the arena set up, a request for `n` bytes, whatever `n`: with `t` the bytes the blocks since the last
setup take and `n` rounded up, null and an unchanged arena when `t` modulo 2^32 exceeds the arena; otherwise, when `t` itself fits, the block behind all blocks, cleared, everything else unchanged;
otherwise (`t` is at least 2^32) the request is undefined. -/
theorem C182_request (ops : List Op) (hs : ∀ o ∈ ops, Arena o) (w : World) (e : run start ops = .ok w) (hset : w.st.setup = true) (n : Nat) (hp : Bool) :
    AllocModel.new w.st n hp =
      if 32767 < (taken w.live + up8 n) % 4294967296 then .ok (w.st, .null)
      else if taken w.live + up8 n ≤ 32767 then
        .ok ({ w.st with used := taken w.live + up8 n, cur := taken w.live + up8 n, bytes := cleared w.st.bytes (taken w.live) n }, .arena (taken w.live))
      else .ub := by
  have h := full_run full_start hs e
  rw [new_every h.inv hset n hp, h.sum hset]
  rw [show after w.st n = { w.st with used := taken w.live + up8 n, cur := taken w.live + up8 n, bytes := cleared w.st.bytes (taken w.live) n } by
    rw [← h.sum hset]; rfl]

/-- **C182**: exactly which requests are undefined. -/
theorem C182_undefined (ops : List Op) (hs : ∀ o ∈ ops, Arena o) (w : World) (e : run start ops = .ok w) (n : Nat) (hp : Bool) :
    AllocModel.new w.st n hp = .ub ↔
      if w.st.setup = true then 32767 < taken w.live + up8 n ∧ (taken w.live + up8 n) % 4294967296 ≤ 32767 else hp = false := by
  cases hset : w.st.setup with
  | false =>
    rw [if_neg (by simp)]
    unfold AllocModel.new
    rw [if_pos hset]
    cases hp <;> simp
  | true =>
    rw [if_pos rfl, C182_request ops hs w e hset n hp]
    by_cases c : 32767 < (taken w.live + up8 n) % 4294967296
    · rw [if_pos c]; constructor
      · intro h; cases h
      · intro h; omega
    · rw [if_neg c]
      by_cases c2 : taken w.live + up8 n ≤ 32767
      · rw [if_pos c2]; constructor
        · intro h; cases h
        · intro h; omega
      · rw [if_neg c2]; exact ⟨fun _ => ⟨by omega, by omega⟩, fun _ => rfl⟩

/-- **C182**: after any defined history, of requests of any size, the blocks handed out since the last setup are aligned, inside the arena and share no byte. -/
theorem C182_blocks (ops : List Op) (hs : ∀ o ∈ ops, Arena o) (w : World) (e : run start ops = .ok w) :
    (∀ b ∈ w.live, Good b) ∧ Pairwise Disjoint w.live ∧ taken w.live ≤ 32767 := by
  have h := full_run full_start hs e
  have hle := h.inv.le
  refine ⟨fun b hb => ?_, h.inv.pw, ?_⟩
  · have := h.inv.blocks b hb
    unfold Good; omega
  · cases hset : w.st.setup with
    | true => have := h.sum hset; omega
    | false => rw [h.inv.nolive hset]; decide

/-- **C182**: a request that gets a block gets it all zero, and no byte of a block handed out before changes. -/
theorem C182_contents (ops : List Op) (hs : ∀ o ∈ ops, Arena o) (w : World) (e : run start ops = .ok w) (n : Nat) (hp : Bool) (s : State) (o : Nat)
    (en : AllocModel.new w.st n hp = .ok (s, .arena o)) :
    content s (o, n) = List.replicate n 0 ∧ ∀ b ∈ w.live, content s b = content w.st b ∧ Disjoint (o, n) b := by
  have h := full_run full_start hs e
  have hset : w.st.setup = true := by
    cases hset : w.st.setup with
    | true => rfl
    | false =>
      unfold AllocModel.new at en
      rw [if_pos hset] at en
      cases hp <;> cases en
  have hlen := h.inv.len hset
  rw [new_every h.inv hset n hp] at en
  split at en
  · cases en
  · split at en
    · rename_i c
      unfold up8 at c
      simp only [Res.ok.injEq, Prod.mk.injEq, Ptr.arena.injEq] at en
      obtain ⟨rfl, rfl⟩ := en
      have hl : (w.st.bytes.take w.st.cur).length = w.st.cur := by rw [List.length_take]; omega
      refine ⟨?_, fun b hb => ?_⟩
      · unfold content after
        simp only []
        rw [List.append_assoc, List.drop_append_of_le_length (by omega), List.drop_of_length_le (by omega), List.nil_append,
          List.take_append_of_le_length (by simp), List.take_of_length_le (by simp)]
      · have hb := h.inv.blocks b hb
        refine ⟨?_, Or.inr hb.2⟩
        unfold content after
        simp only []
        rw [List.append_assoc, List.drop_append_of_le_length (by omega), List.take_append_of_le_length (by rw [List.length_drop]; omega), List.drop_take, List.take_take,
          Nat.min_eq_left (by omega)]
    · cases en

/-- A history with a request of 2^32 - 8 bytes, which is refused; with 16 bytes taken the same request would be undefined. -/
def wide (g : List Nat) : List Op := [.setup (some g), .new 4294967288 true, .new 9 true, .new 40000 true]

example (g : List Nat) (hg : g = List.replicate 32767 7) : (∀ o ∈ wide g, Arena o) ∧ ∃ w, run start (wide g) = .ok w ∧ w.st.setup = true ∧ w.live = [(0, 9)] ∧ taken w.live = 16 ∧
    AllocModel.new w.st 4294967280 true = .ub ∧ AllocModel.new w.st 4294967288 true = .ub := by
  have hg : g.length = 32767 := by rw [hg]; exact List.length_replicate
  have ha : ∀ o ∈ wide g, Arena o := by
    intro o ho
    simp only [wide, List.mem_cons, List.not_mem_nil, or_false] at ho
    rcases ho with h | h | h | h <;> subst h <;> first | exact hg | trivial
  have h0 : step start (.setup (some g)) = .ok ⟨⟨true, 0, 0, g⟩, []⟩ := rfl
  have f0 := full_step full_start (show Arena (.setup (some g)) from hg) h0
  have e1 : step ⟨⟨true, 0, 0, g⟩, []⟩ (.new 4294967288 true) = .ok ⟨⟨true, 0, 0, g⟩, []⟩ := by
    simp only [step, new_every f0.inv rfl]; rfl
  have f1 := full_step f0 (o := .new 4294967288 true) trivial e1
  have e2 : step ⟨⟨true, 0, 0, g⟩, []⟩ (.new 9 true) = .ok ⟨after ⟨true, 0, 0, g⟩ 9, [(0, 9)]⟩ := by
    simp only [step, new_every f0.inv rfl]; rfl
  have f2 := full_step f0 (o := .new 9 true) trivial e2
  have e3 : step ⟨after ⟨true, 0, 0, g⟩ 9, [(0, 9)]⟩ (.new 40000 true) = .ok ⟨after ⟨true, 0, 0, g⟩ 9, [(0, 9)]⟩ := by
    have hn := new_every f2.inv rfl 40000 true
    have hc : 32767 < ((⟨after ⟨true, 0, 0, g⟩ 9, [(0, 9)]⟩ : World).st.cur + up8 40000) % 4294967296 :=
      show 32767 < (16 + up8 40000) % 4294967296 by decide
    rw [if_pos hc] at hn
    simp only [step]
    rw [hn]; rfl
  have er : run start (wide g) = .ok ⟨after ⟨true, 0, 0, g⟩ 9, [(0, 9)]⟩ := by
    unfold wide
    rw [run, h0, Res.bind_ok, run, e1, Res.bind_ok, run, e2, Res.bind_ok, run, e3, Res.bind_ok, run]
  refine ⟨ha, _, er, rfl, rfl, (show taken [(0, 9)] = 16 by decide), ?_, ?_⟩
  · refine (C182_undefined (wide g) ha _ er _ _).mpr ?_
    show 32767 < taken [(0, 9)] + up8 4294967280 ∧ (taken [(0, 9)] + up8 4294967280) % 4294967296 ≤ 32767
    decide
  · refine (C182_undefined (wide g) ha _ er _ _).mpr ?_
    show 32767 < taken [(0, 9)] + up8 4294967288 ∧ (taken [(0, 9)] + up8 4294967288) % 4294967296 ≤ 32767
    decide

end Verif.AllocProps
