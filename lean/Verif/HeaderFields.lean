import Verif.HeaderExact
/-!
# C189: exactly when the generated header defines the structs held by value first, and exactly when all bases are public
-/
namespace Verif.Header

/-- **C189**. In a module whose structs are nobody's base, every type of the header holds by value only structs already defined exactly when the structs that are translated come in such an order in the module: the translator never reorders
structs. -/
theorem C189_fields (skip : Decl → Bool) (module : List Decl) (hsealed : ∀ a ∈ module, ∀ b ∈ module, b.kind = .struct → ¬ Derives a b) :
    Before Holds (header skip module) ↔ Before Holds (module.filter (fun d => d.kind = .struct && !skip d)) := by
  have ew : (wanted skip module).filter (fun d => d.kind = .struct) = module.filter (fun d => d.kind = .struct && !skip d) := by
    unfold wanted
    rw [List.filter_filter]
    apply List.filter_congr
    intro d _
    cases d.kind <;> cases skip d <;> rfl
  have es : (collect skip module).filter (fun d => d.kind = .struct) = (wanted skip module).filter (fun d => d.kind = .struct) := by
    rw [collect_eq, foldl_structs]
    · rw [List.nil_append]
    · intro a ha b hb
      rw [List.nil_append] at ha
      exact hsealed a ((List.mem_filter.mp ha).1) b ((List.mem_filter.mp hb).1)
  rw [← ew]
  constructor
  · intro h i j a b ha hb hd
    have up : ∀ {k : Nat} {d : Decl}, ((wanted skip module).filter (fun d => d.kind = .struct))[k]? = some d → (header skip module)[k]? = some d := by
      intro k d hk
      unfold header printed
      rw [es, List.getElem?_append_left (List.getElem?_eq_some_iff.1 hk).1]
      exact hk
    exact h i j a b (up ha) (up hb) hd
  · exact C83_struct_order_partial skip module hsealed

example : let m := [str "Point" [], cls "A" [], str "Line" ["Point", "Point"]]
    (∀ a ∈ m, ∀ b ∈ m, b.kind = .struct → ¬ Derives a b) ∧ header (fun _ => false) m = [str "Point" [], str "Line" ["Point", "Point"], cls "A" []] ∧
    m.filter (fun d => d.kind = .struct && !(fun _ => false) d) = [str "Point" [], str "Line" ["Point", "Point"]] := by decide +kernel

/-- **C189**. All bases of a type are public bases in the generated text exactly when it is a struct or has at most one base (names without commas that do not start with `public `, as identifiers do not). -/
theorem C189_public (kind : Kind) (hk : kind = .class ∨ kind = .struct) (bases : List WStr) (hne : bases ≠ []) (h : ∀ b ∈ bases, 44 ∉ b ∧ ¬ (w "public ").isPrefixOf b) :
    (∀ e ∈ baseClause (kind = .struct) (parentage kind bases), e.2 = .pub) ↔ kind = .struct ∨ bases.length ≤ 1 := by
  constructor
  · intro ha
    rcases hk with rfl | rfl
    · right
      rw [C85_base_clause_partial .class (.inl rfl) bases (fun b hb => (h b hb).1)] at ha
      match bases, hne, h, ha with
      | [b], _, _, _ => exact Nat.le_refl _
      | b :: c :: r, _, h, ha =>
        have hc : entry (decide (Kind.class = Kind.struct)) c = (c, .priv) := by
          unfold entry
          rw [if_neg (h c (by simp)).2]
          rfl
        have := ha (entry (decide (Kind.class = Kind.struct)) c) (by unfold declared; simp)
        rw [hc] at this
        cases this
    · exact .inl rfl
  · intro h1 e he
    rw [C85_public_partial kind hk bases h h1 hne] at he
    obtain ⟨b, _, rfl⟩ := List.mem_map.1 he
    rfl

example : (∀ b ∈ [w "Base", w "IThing"], 44 ∉ b ∧ ¬ (w "public ").isPrefixOf b) ∧ baseClause false (parentage .class [w "Base", w "IThing"]) = [(w "Base", .pub), (w "IThing", .priv)] ∧
    baseClause true (parentage .struct [w "A", w "B"]) = [(w "A", .pub), (w "B", .pub)] := by decide +kernel

end Verif.Header
