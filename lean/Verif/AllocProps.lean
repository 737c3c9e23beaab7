import Verif.AllocModel
set_option linter.unusedSimpArgs false
set_option linter.unusedVariables false
/-!
# Properties of the platform allocator (C52)
-/
namespace Verif.AllocProps
open AllocModel

/-! ## Specification: histories -/

/-- What a program does: allocate, free, store a byte, set up. -/
inductive Op
  | new (size : Nat) (heap : Bool)
  | delete
  | store (off v : Nat)
  | setup (garbage : Option (List Nat))

/-- A block: offset and requested size. -/
abbrev Block := Nat × Nat

/-- Allocator state with the blocks handed out since the last setup. -/
structure World where
  st : State
  live : List Block

/-- One operation; a successful arena allocation adds a block, setup forgets the blocks. -/
def step (w : World) : Op → Res World
  | .new n h => (AllocModel.new w.st n h) >>= fun r => match r.2 with
      | .arena o => .ok { st := r.1, live := (o, n) :: w.live }
      | _ => .ok { st := r.1, live := w.live }
  | .delete => .ok { w with st := AllocModel.delete w.st }
  | .store o v => (AllocModel.store w.st o v) >>= fun s => .ok { w with st := s }
  | .setup g => .ok { st := AllocModel.setup w.st g, live := [] }

def run : World → List Op → Res World
  | w, [] => .ok w
  | w, o :: os => (step w o) >>= fun w' => run w' os

/-- Sizes for which no 32-bit computation wraps, and memory obtained from `malloc` that has the size asked for. -/
def Sane : Op → Prop
  | .new n _ => n ≤ 0xFFFF8000
  | .setup (some g) => g.length = 32767
  | _ => True

/-- Two blocks share no byte. -/
def Disjoint (a b : Block) : Prop := a.1 + a.2 ≤ b.1 ∨ b.1 + b.2 ≤ a.1
/-- 8-byte aligned and inside the arena. -/
def Good (b : Block) : Prop := b.1 % 8 = 0 ∧ b.1 + b.2 ≤ 32767
/-- Bytes of a block. -/
def content (s : State) (b : Block) : List Nat := (s.bytes.drop b.1).take b.2

def Pairwise (p : Block → Block → Prop) : List Block → Prop
  | [] => True
  | b :: bs => (∀ x ∈ bs, p b x) ∧ Pairwise p bs

/-- The start of every program. -/
def start : World := { st := initial, live := [] }

/-! ## Invariant -/

structure Inv (w : World) : Prop where
  eq : w.st.used = w.st.cur
  al : w.st.cur % 8 = 0
  le : w.st.cur ≤ 32767
  len : w.st.setup = true → w.st.bytes.length = 32767
  blocks : ∀ b ∈ w.live, b.1 % 8 = 0 ∧ b.1 + b.2 ≤ w.st.cur
  pw : Pairwise Disjoint w.live
  nolive : w.st.setup = false → w.live = []

theorem inv_start : Inv start :=
  ⟨rfl, rfl, by decide, (by intro h; cases h), (by intro b hb; cases hb), trivial, fun _ => rfl⟩

/-- The state after a successful allocation of `n` bytes. -/
def after (s : State) (n : Nat) : State :=
  { s with used := s.cur + (n + 7) / 8 * 8,
           cur := s.cur + (n + 7) / 8 * 8,
           bytes := s.bytes.take s.cur ++ List.replicate n 0 ++ s.bytes.drop (s.cur + n) }

theorem new_arena {w : World} (h : Inv w) (hs : w.st.setup = true) (n : Nat) (hp : Bool) (hn : n ≤ 0xFFFF8000) :
    (w.st.cur + (n + 7) / 8 * 8 > 32767 ∧ AllocModel.new w.st n hp = .ok (w.st, .null)) ∨
    (w.st.cur + (n + 7) / 8 * 8 ≤ 32767 ∧ AllocModel.new w.st n hp = .ok (after w.st n, .arena w.st.cur)) := by
  have hl := h.le
  have hlen := h.len hs
  have ha : align8 (n % 4294967296) = (n + 7) / 8 * 8 := by unfold align8; omega
  have hu := h.eq
  unfold AllocModel.new
  rw [hs, ha, hu, if_neg (by simp)]
  simp only []
  rw [Nat.mod_eq_of_lt (show w.st.cur + (n + 7) / 8 * 8 < 4294967296 by omega)]
  rcases Nat.lt_or_ge 32767 (w.st.cur + (n + 7) / 8 * 8) with c | c
  · left; exact ⟨c, by rw [if_pos (by unfold memorySize; omega)]⟩
  · right
    refine ⟨by omega, ?_⟩
    rw [if_neg (by unfold memorySize; omega)]
    unfold zero
    rw [if_pos (by omega), Res.bind_ok]
    unfold after
    rw [hs]

theorem inv_step {w w' : World} {o : Op} (h : Inv w) (hs : Sane o) (e : step w o = .ok w') : Inv w' := by
  cases o with
  | new n hp =>
    simp only [step] at e
    cases hset : w.st.setup with
    | false =>
      unfold AllocModel.new at e
      rw [if_pos hset] at e
      cases hp with
      | false => cases e
      | true =>
        rw [if_pos rfl, Res.bind_ok, Res.ok.injEq] at e
        subst e
        exact ⟨h.eq, h.al, h.le, h.len, h.blocks, h.pw, h.nolive⟩
    | true =>
      rcases new_arena h hset n hp hs with ⟨c, en⟩ | ⟨c, en⟩
      · rw [en, Res.bind_ok] at e
        simp only [Res.ok.injEq] at e
        subst e
        exact ⟨h.eq, h.al, h.le, h.len, h.blocks, h.pw, h.nolive⟩
      · rw [en, Res.bind_ok] at e
        simp only [Res.ok.injEq] at e
        subst e
        have := h.al
        have hlen := h.len hset
        refine ⟨rfl, ?_, c, ?_, ?_, ?_, ?_⟩
        · simp only [after]; omega
        · intro _; simp only [after, List.length_append, List.length_take, List.length_replicate, List.length_drop]; omega
        · intro b hb
          simp only [List.mem_cons] at hb
          rcases hb with rfl | hb
          · simp only [after]; omega
          · have := h.blocks b hb; simp only [after]; omega
        · refine ⟨fun x hx => ?_, h.pw⟩
          have := h.blocks x hx
          right; exact this.2
        · intro hc; simp only [after] at hc; rw [hset] at hc; cases hc
  | delete =>
    simp only [step, Res.ok.injEq] at e; subst e
    exact ⟨h.eq, h.al, h.le, h.len, h.blocks, h.pw, h.nolive⟩
  | store off v =>
    simp only [step, AllocModel.store] at e
    split at e
    · rw [Res.bind_ok, Res.ok.injEq] at e; subst e
      exact ⟨h.eq, h.al, h.le, fun hh => by simp only [List.length_set]; exact h.len hh, h.blocks, h.pw, h.nolive⟩
    · cases e
  | setup g =>
    simp only [step, Res.ok.injEq] at e; subst e
    unfold AllocModel.setup
    cases hset : w.st.setup <;> cases g <;> simp only []
    · exact ⟨rfl, rfl, by simp, (fun hh => by simp only [hset] at hh; cases hh), (by intro b hb; cases hb), trivial, fun _ => rfl⟩
    · exact ⟨rfl, rfl, by simp, fun _ => hs, (by intro b hb; cases hb), trivial, fun hh => by cases hh⟩
    · exact ⟨rfl, rfl, by simp, fun hh => h.len hset, (by intro b hb; cases hb), trivial, fun _ => rfl⟩
    · exact ⟨rfl, rfl, by simp, fun hh => h.len hset, (by intro b hb; cases hb), trivial, fun _ => rfl⟩

theorem inv_run {ops : List Op} {w w' : World} (h : Inv w) (hs : ∀ o ∈ ops, Sane o) (e : run w ops = .ok w') : Inv w' := by
  induction ops generalizing w with
  | nil => simp only [run, Res.ok.injEq] at e; subst e; exact h
  | cons o os ih =>
    simp only [run, Res.bind_eq_ok] at e
    obtain ⟨w1, e1, e2⟩ := e
    exact ih (inv_step h (hs o (List.mem_cons_self ..)) e1) (fun x hx => hs x (List.mem_cons_of_mem _ hx)) e2

/-! ## C52 -/

/-- **C52** (partial: sizes up to 0xFFFF8000, and zero-size blocks may share an address): after any history of allocations, frees,
stores and setups, all blocks handed out since the last setup are 8-byte aligned, inside the arena and pairwise disjoint. -/
theorem C52_blocks_partial (ops : List Op) (hs : ∀ o ∈ ops, Sane o) (w : World) (e : run start ops = .ok w) :
    (∀ b ∈ w.live, Good b) ∧ Pairwise Disjoint w.live := by
  have h := inv_run inv_start hs e
  refine ⟨fun b hb => ?_, h.pw⟩
  have := h.blocks b hb
  have := h.le
  unfold Good; omega

/-- **C52** (partial, as above): in any state a program can reach after setup, an allocation never fails in an undefined way. It
returns null, leaving the arena and all bookkeeping untouched, exactly when the size rounded up to 8 does not fit in what is
left; otherwise it returns a block that is aligned, inside the arena, all zero, disjoint from every live block, and no byte of any
live block changes. -/
theorem C52_allocation_partial (ops : List Op) (hs : ∀ o ∈ ops, Sane o) (w : World) (e : run start ops = .ok w) (hset : w.st.setup = true)
    (n : Nat) (hn : n ≤ 0xFFFF8000) (hp : Bool) :
    ∃ s p, AllocModel.new w.st n hp = .ok (s, p) ∧
      ((p = .null ∧ s = w.st ∧ 32767 < w.st.used + (n + 7) / 8 * 8) ∨
       ∃ o, p = .arena o ∧ w.st.used + (n + 7) / 8 * 8 ≤ 32767 ∧ Good (o, n) ∧ content s (o, n) = List.replicate n 0 ∧
         (∀ b ∈ w.live, Disjoint (o, n) b ∧ content s b = content w.st b)) := by
  have h := inv_run inv_start hs e
  have hlen := h.len hset
  have hal := h.al
  have hu := h.eq
  rcases new_arena h hset n hp hn with ⟨c, en⟩ | ⟨c, en⟩
  · exact ⟨_, _, en, Or.inl ⟨rfl, rfl, by omega⟩⟩
  · refine ⟨_, _, en, Or.inr ⟨w.st.cur, rfl, by omega, ⟨hal, ?_⟩, ?_, ?_⟩⟩
    · show w.st.cur + n ≤ 32767
      omega
    · unfold content
      simp only [after]
      rw [List.append_assoc, List.drop_left' (by rw [List.length_take]; omega), List.take_left' (by simp)]
    · intro b hb
      have hb' := h.blocks b hb
      refine ⟨Or.inr hb'.2, ?_⟩
      unfold content
      simp only [after]
      apply List.ext_getElem?
      intro i
      rw [List.getElem?_take, List.getElem?_take]
      split
      · rename_i ci
        rw [List.getElem?_drop, List.getElem?_drop, List.append_assoc, List.getElem?_append_left (by rw [List.length_take]; omega),
          List.getElem?_take, if_pos (by omega)]
      · rfl

/-- Allocating all of a list of sizes, stopping at null. -/
def allocAll : State → List Nat → Option State
  | s, [] => some s
  | s, n :: ns => match AllocModel.new s n true with
    | .ok (s', .arena _) => allocAll s' ns
    | _ => none

/-- The room a request takes. -/
def room (n : Nat) : Nat := (n + 7) / 8 * 8
def total : List Nat → Nat
  | [] => 0
  | n :: ns => room n + total ns

/-- **C52**: the arena is used completely: from a fresh setup any sequence of requests succeeds exactly when the rounded sizes sum
to at most 32767 (partial: each request at most 0xFFFF8000). -/
theorem C52_capacity_partial (ns : List Nat) (hn : ∀ n ∈ ns, n ≤ 0xFFFF8000) (g : List Nat) (hg : g.length = 32767) :
    (allocAll (AllocModel.setup initial (some g)) ns).isSome = true ↔ total ns ≤ 32767 := by
  have gen : ∀ (ns : List Nat) (w : World), (∀ n ∈ ns, n ≤ 0xFFFF8000) → Inv w → w.st.setup = true →
      ((allocAll w.st ns).isSome = true ↔ w.st.cur + total ns ≤ 32767) := by
    intro ns
    induction ns with
    | nil => intro w _ h _; have := h.le; simp [allocAll, total]; omega
    | cons n ns ih =>
      intro w hn h hset
      have hn1 := hn n (List.mem_cons_self ..)
      rcases new_arena h hset n true hn1 with ⟨c, en⟩ | ⟨c, en⟩
      · simp only [allocAll, en, total, room]; simp; omega
      · have hst : step w (.new n true) = .ok ⟨after w.st n, (w.st.cur, n) :: w.live⟩ := by simp only [step, en, Res.bind_ok]
        have hi := inv_step (o := .new n true) h hn1 hst
        have := ih _ (fun x hx => hn x (List.mem_cons_of_mem _ hx)) hi (show (after w.st n).setup = true from hset)
        simp only [allocAll, en, total, room]
        rw [this]
        simp only [after]
        omega
  have h0 : step start (.setup (some g)) = .ok ⟨AllocModel.setup initial (some g), []⟩ := rfl
  have hi := inv_step (o := .setup (some g)) inv_start hg h0
  have := gen ns _ hn hi rfl
  have hc : (AllocModel.setup initial (some g)).cur = 0 := rfl
  simp only [hc] at this
  rw [this]; omega

/-- **C52**: before the first setup every allocation the C heap can satisfy is a zeroed block of the requested size. -/
theorem C52_before_setup (n : Nat) : AllocModel.new initial n true = .ok (initial, .heap (List.replicate n 0)) ∧
    AllocModel.new initial n false = .ub := by
  unfold AllocModel.new; simp [initial]

/-- A history that meets the hypotheses: set up, allocate 5 and 100 bytes, store, free, allocate 3 more. -/
def demo : List Op := [.setup (some (List.replicate 32767 7)), .new 5 true, .new 100 true, .store 10 99, .delete, .new 3 true]

example : (∀ o ∈ demo, Sane o) ∧ ∃ w, run start demo = .ok w ∧ w.st.setup = true ∧ w.live = [(112, 3), (8, 100), (0, 5)] := by
  constructor
  · intro o ho
    simp only [demo, List.mem_cons, List.not_mem_nil, or_false] at ho
    rcases ho with h | h | h | h | h | h <;> subst h <;> first | exact List.length_replicate | trivial | (show _ ≤ _; omega)
  · have hset : step start (.setup (some (List.replicate 32767 7))) = .ok ⟨⟨true, 0, 0, List.replicate 32767 7⟩, []⟩ := rfl
    have i0 := inv_step inv_start (show Sane (.setup (some (List.replicate 32767 7))) from List.length_replicate) hset
    have st : ∀ (w : World), Inv w → w.st.setup = true → ∀ n, n ≤ 0xFFFF8000 → w.st.cur + (n + 7) / 8 * 8 ≤ 32767 →
        ∃ w', step w (.new n true) = .ok w' ∧ w'.live = (w.st.cur, n) :: w.live ∧ w'.st.cur = w.st.cur + (n + 7) / 8 * 8 ∧ w'.st.setup = true ∧ Inv w' := by
      intro w h hs n hn hc
      rcases new_arena h hs n true hn with ⟨c, _⟩ | ⟨c, en⟩
      · omega
      · have e : step w (.new n true) = .ok ⟨after w.st n, (w.st.cur, n) :: w.live⟩ := by simp only [step, en, Res.bind_ok]
        exact ⟨_, e, rfl, rfl, hs, inv_step h (show Sane (.new n true) from hn) e⟩
    obtain ⟨w1, e1, l1, c1, s1, i1⟩ := st _ i0 rfl 5 (by omega) (by decide)
    simp only [] at c1
    obtain ⟨w2, e2, l2, c2, s2, i2⟩ := st w1 i1 s1 100 (by omega) (by omega)
    have hlen := i2.len s2
    have e3 : step w2 (.store 10 99) = .ok { w2 with st := { w2.st with bytes := w2.st.bytes.set 10 99 } } := by
      simp only [step, AllocModel.store]; rw [if_pos (by omega), Res.bind_ok]
    have i3 := inv_step i2 (show Sane (.store 10 99) from trivial) e3
    obtain ⟨w4, e4, l4, c4, s4, i4⟩ := st _ i3 s2 3 (by omega) (by simp only []; omega)
    refine ⟨w4, ?_, s4, ?_⟩
    · simp only [demo, run]
      rw [hset, Res.bind_ok, e1, Res.bind_ok, e2, Res.bind_ok, e3, Res.bind_ok]
      simp only [step, AllocModel.delete, Res.bind_ok]
      simp only [step] at e4
      rw [e4, Res.bind_ok]
    · rw [l4]; simp only []
      rw [l2, l1, c2, c1]

/-- **C52** refuted for large sizes: a request of 2^32 + 8 bytes, or of 2^32 - 1 bytes, passes the capacity check because the size is
narrowed to 32 bits, and the block is then cleared far past the end of the arena. -/
theorem C52_large_refuted (s : State) (hs : s.setup = true) (hu : s.used ≤ 32752) (hb : s.bytes.length = 32767) (hp : Bool) :
    AllocModel.new s 4294967304 hp = .ub ∧ AllocModel.new s 4294967295 hp = .ub := by
  unfold AllocModel.new
  rw [hs]
  have e1 : align8 (4294967304 % 4294967296) = 8 := by decide
  have e2 : align8 (4294967295 % 4294967296) = 0 := by decide
  simp only [e1, e2]
  rw [if_neg (by simp), if_neg (by unfold memorySize; omega), if_neg (by simp), if_neg (by unfold memorySize; omega)]
  unfold zero
  rw [if_neg (by omega), if_neg (by omega)]
  exact ⟨rfl, rfl⟩

/-- **C52** refuted for distinctness: two requests of zero bytes get the same address. -/
theorem C52_zero_size_refuted (w : World) (h : Inv w) (hs : w.st.setup = true) : ∃ s, AllocModel.new w.st 0 true = .ok (s, .arena w.st.cur) ∧
    ∃ s', AllocModel.new s 0 true = .ok (s', .arena w.st.cur) := by
  have hl := h.le
  rcases new_arena h hs 0 true (by omega) with ⟨c, _⟩ | ⟨c, en⟩
  · omega
  · refine ⟨_, en, ?_⟩
    have e : step w (.new 0 true) = .ok ⟨after w.st 0, (w.st.cur, 0) :: w.live⟩ := by simp only [step, en, Res.bind_ok]
    have hi := inv_step (o := .new 0 true) h (show (0 : Nat) ≤ 0xFFFF8000 by omega) e
    rcases new_arena hi (show (after w.st 0).setup = true from hs) 0 true (by omega) with ⟨c, _⟩ | ⟨_, en'⟩
    · simp only [after] at c; omega
    · exact ⟨_, en'⟩

/-- **C52**: a second setup recycles the arena: the next block starts at offset 0 again, whatever was live before. -/
theorem C52_recycle (w : World) (h : Inv w) (hs : w.st.setup = true) (g : Option (List Nat)) (n : Nat) (hn : n ≤ 32760) :
    ∃ s, AllocModel.new (AllocModel.setup w.st g) n true = .ok (s, .arena 0) := by
  have e : step w (.setup g) = .ok ⟨AllocModel.setup w.st g, []⟩ := rfl
  have h2 : AllocModel.setup w.st g = { w.st with used := 0, cur := 0 } := by
    unfold AllocModel.setup
    split
    all_goals first | rfl | (simp_all; done)
  rw [h2]
  have hi : Inv ⟨{ w.st with used := 0, cur := 0 }, []⟩ :=
    ⟨rfl, rfl, by simp, fun _ => h.len hs, (by intro b hb; cases hb), trivial, fun _ => rfl⟩
  rcases new_arena hi hs n true (by omega) with ⟨c, _⟩ | ⟨_, en⟩
  · simp only [] at c; omega
  · exact ⟨_, en⟩

end Verif.AllocProps
