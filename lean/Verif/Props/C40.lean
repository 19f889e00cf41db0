import Verif.Proof.DebugText
import Verif.Props.C01_C03
import Verif.Proof.Accept
import Verif.Props.C30_C31
import Verif.Props.C04_C16
/-
C40: `debug_metrics`.
-/
namespace Crevice

/-- C40: for every derived struct with at least one field `debug_metrics` reports `size_of` and ALIGNMENT of the generated
struct, the user's fields in declaration order (and no padding fields), each at its real offset and
with the size of its *declared* type, unless that type's name is `Field`. -/
theorem C40_metrics {tg : Target} (htg : tg.Valid) {env : ForeignEnv} {l : Layout} {name : String}
    {fs : List (String × Ty)} {i : Impl} (h : resolve tg env l (.struct name fs) = some i)
    (hne : fs ≠ []) (ptr : Nat) (sizeOf : Ty → Nat) :
    ∃ d, debugMetrics tg env l ptr sizeOf name fs = some d ∧
      d.size = i.out.size tg ∧ d.align = i.alignment ∧
      d.fields.map DebugField.name = fs.map Prod.fst ∧
      ∀ k (hk : k < fs.length) (hk' : k < d.fields.length),
        ((∀ n, fs[k].2.spelled = some n → plainName n ≠ "Field") → d.fields[k].size = sizeOf fs[k].2) ∧
        ∃ t, i.out.offsetOf tg [fs[k].1] = some (d.fields[k].offset, t) := by
  have key : ∀ t : Ty, (∀ n, t.spelled = some n → plainName n ≠ "Field") →
      sizeInMetrics ptr sizeOf t = sizeOf t := by
    intro t ht
    rw [sizeInMetrics]
    split
    · rename_i n hn
      rw [if_neg (plainName_eq_unraw n ▸ ht n hn)]
    · rfl
  obtain ⟨is, offs, fin, h1, h2, -, h4⟩ := C03_placement htg h
  have hl : is.length = fs.length := by simpa using (congrArg List.length h1).symm
  have hlo : offs.length = fs.length := by rw [h2.length]; simpa using hl
  have hsome : ∀ f ∈ fs, ∃ o, i.out.offsetOf tg [f.1] = some o := by
    intro f hf
    obtain ⟨k, hk, rfl⟩ := List.getElem_of_mem hf
    exact ⟨_, h4 k hk (by omega) (by omega)⟩
  have hm : ∀ gs : List (String × Ty), (∀ f ∈ gs, ∃ o, i.out.offsetOf tg [f.1] = some o) →
      ∃ ds : List DebugField, (gs.mapM fun f => (i.out.offsetOf tg [f.1]).map fun o =>
          ({ name := f.1, offset := o.1, size := sizeInMetrics ptr sizeOf f.2 } : DebugField)) = some ds ∧
        ds.map DebugField.name = gs.map Prod.fst ∧
        ∀ k (hk : k < gs.length) (hk' : k < ds.length),
          ds[k].size = sizeInMetrics ptr sizeOf gs[k].2 ∧
          ∃ t, i.out.offsetOf tg [gs[k].1] = some (ds[k].offset, t) := by
    intro gs
    induction gs with
    | nil => intro _; exact ⟨[], rfl, rfl, fun k hk => by simp at hk⟩
    | cons g r ih =>
      intro hs
      obtain ⟨ds, hd1, hd2, hd3⟩ := ih fun f hf => hs f (by simp [hf])
      obtain ⟨o, ho⟩ := hs g (by simp)
      refine ⟨⟨g.1, o.1, sizeInMetrics ptr sizeOf g.2⟩ :: ds, ?_, ?_, ?_⟩
      · rw [mapM_option_cons, ho, hd1]; rfl
      · simp [hd2]
      · intro k hk hk'
        cases k with
        | zero => exact ⟨rfl, o.2, ho⟩
        | succ k => exact hd3 k (by simpa using hk) (by simpa using hk')
  obtain ⟨ds, hd1, hd2, hd3⟩ := hm fs hsome
  refine ⟨⟨i.out.size tg, i.alignment, ds⟩, ?_, rfl, rfl, hd2, fun k hk hk' =>
    ⟨fun hn => (hd3 k hk hk').1.trans (key _ hn), (hd3 k hk hk').2⟩⟩
  rw [debugMetrics, if_neg hne, h, Option.bind_some, hd1]; rfl

/-- C40: when there is a `debug_metrics` at all. With the feature `debug-methods` the derive of a
struct without fields does not compile (without the feature it does, C30_compiles). -/
theorem C40_exists {tg : Target} (htg : tg.Valid) (env : ForeignEnv) (l : Layout) (name : String)
    (fs : List (String × Ty)) (ptr : Nat) (sizeOf : Ty → Nat) :
    (∃ d, debugMetrics tg env l ptr sizeOf name fs = some d) ↔
      fs ≠ [] ∧ ∃ i, resolve tg env l (.struct name fs) = some i := by
  constructor
  · rintro ⟨d, hd⟩
    rw [debugMetrics] at hd
    split at hd
    · cases hd
    · rename_i hne
      obtain ⟨i, hi, -⟩ := Option.bind_eq_some_iff.1 hd
      exact ⟨hne, i, hi⟩
  · rintro ⟨hne, i, hi⟩
    obtain ⟨d, hd, -⟩ := C40_metrics htg hi hne ptr sizeOf
    exact ⟨d, hd⟩

/-- C40, an exception: the empty struct converts, but has no `debug_metrics`. -/
theorem C40_empty_exception (tg : Target) (env : ForeignEnv) (l : Layout) (name : String)
    (ptr : Nat) (sizeOf : Ty → Nat) :
    (∃ i, resolve tg env l (.struct name []) = some i) ∧
      debugMetrics tg env l ptr sizeOf name [] = none :=
  ⟨(C30_compiles tg env l name []).2 (by simp), rfl⟩

/-- C40: the offsets reported are those GLSL gives the members of the corresponding block. -/
theorem C40_glsl_offsets {tg : Target} (htg : tg.Valid) {env : ForeignEnv} {l : Layout}
    {name : String} {fs : List (String × Ty)} {i : Impl}
    (h : resolve tg env l (.struct name fs) = some i) {g : Glsl.Ty}
    (hg : (Ty.struct name fs).glsl = some g) (ptr : Nat) (sizeOf : Ty → Nat) {d : DebugMetrics}
    (hd : debugMetrics tg env l ptr sizeOf name fs = some d) {f : DebugField} (hf : f ∈ d.fields)
    {o : Nat} {g' : Glsl.Ty} (ho : g.offsetOf l [f.name] = some (o, g')) : f.offset = o := by
  obtain ⟨d', hd', -, -, hn, hall⟩ := C40_metrics htg h
    ((C40_exists htg env l name fs ptr sizeOf).1 ⟨d, hd⟩).1 ptr sizeOf
  rw [hd] at hd'; cases hd'
  obtain ⟨k, hk, rfl⟩ := List.getElem_of_mem hf
  have hlen : d.fields.length = fs.length := by simpa using congrArg List.length hn
  have hk2 : k < fs.length := by omega
  obtain ⟨-, t, ht⟩ := hall k hk2 hk
  have hname : d.fields[k].name = fs[k].1 := by
    have := congrArg (fun l => l[k]?) hn
    simpa [hk, hk2] using this
  rw [hname] at ho
  obtain ⟨t', ht', -⟩ := (laidOut htg h hg).offsets _ _ _ ho
  rw [ht] at ht'
  simp only [Option.some.injEq, Prod.mk.injEq] at ht'
  exact ht'.1

/-- C40, the exception: the reported per-field *size* is not the size of the field in the generated
struct. A `bool` (one byte in Rust on every target) occupies four bytes at its offset. -/
theorem C40_field_size_exception {tg : Target} (htg : tg.Valid) {env : ForeignEnv} {l : Layout}
    {name : String} {fs : List (String × Ty)} {i : Impl}
    (h : resolve tg env l (.struct name fs) = some i) (ptr : Nat) {sizeOf : Ty → Nat} (hbool : sizeOf .bool = 1)
    {k : Nat} (hk : k < fs.length) (hb : fs[k].2 = .bool) :
    ∃ d, debugMetrics tg env l ptr sizeOf name fs = some d ∧ ∃ hk' : k < d.fields.length,
      d.fields[k].size = 1 ∧ ∃ o t, i.out.offsetOf tg [fs[k].1] = some (o, t) ∧ t.size tg = 4 := by
  have hne : fs ≠ [] := by rintro rfl; simp at hk
  obtain ⟨d, hd, -, -, hn, hall⟩ := C40_metrics htg h hne ptr sizeOf
  have hlen : d.fields.length = fs.length := by simpa using congrArg List.length hn
  obtain ⟨is, offs, fin, h1, h2, -, h4⟩ := C03_placement htg h
  have hl : is.length = fs.length := by simpa using (congrArg List.length h1).symm
  have hlo : offs.length = fs.length := by rw [h2.length]; simpa using hl
  refine ⟨d, hd, by omega, ?_, _, _, h4 k hk (by omega) (by omega), ?_⟩
  · rw [(hall k hk (by omega)).1 (by rw [hb]; intro n hn; cases hn), hb, hbool]
  · have e : resolve tg env l fs[k].2 = some is[k] := by
      have := congrArg (fun l => l[k]?) h1
      simpa [hk, hl] using this
    rw [hb, resolve, Option.some.injEq] at e
    rw [← e]
    rfl

/-- C40, the other exception: inside `debug_metrics` the name `Field` means the function's own local
struct. For a field whose type is a user's struct `Field` the reported size is that of the local
struct, four words, whatever the size of the user's. -/
theorem C40_shadowed_exception {tg : Target} (htg : tg.Valid) {env : ForeignEnv} {l : Layout}
    {name : String} {fs : List (String × Ty)} {i : Impl}
    (h : resolve tg env l (.struct name fs) = some i) (ptr : Nat) (sizeOf : Ty → Nat)
    {k : Nat} (hk : k < fs.length) {gs : List (String × Ty)} (hb : fs[k].2 = .struct "Field" gs) :
    ∃ d, debugMetrics tg env l ptr sizeOf name fs = some d ∧ ∃ hk' : k < d.fields.length,
      d.fields[k].size = 4 * ptr := by
  have hne : fs ≠ [] := by rintro rfl; simp at hk
  obtain ⟨d, hd, -, -, hn, hall⟩ := C40_metrics htg h hne ptr sizeOf
  have hlen : d.fields.length = fs.length := by simpa using congrArg List.length hn
  refine ⟨d, hd, by omega, ?_⟩
  simp only [debugMetrics, if_neg hne, Option.bind_eq_some_iff, Option.map_eq_some_iff] at hd
  obtain ⟨j, -, ds, hds, rfl⟩ := hd
  obtain ⟨o, -, ho⟩ := Option.map_eq_some_iff.1 (((mapM_eq_some_iff _ _ _).1 hds).2 k hk (by simp only at hlen; omega))
  simp only
  rw [← ho, hb]
  rfl

/-- `struct S { a: Field }` for a user's `struct Field { x: f32 }` of 4 bytes, on a 64-bit target:
`debug_metrics` says 32. -/
example : ∃ d, debugMetrics x86_64 Ex.env .std140 8 (fun _ => 4) "S"
      [("a", .struct "Field" [("x", Ex.f32)])] = some d ∧ d = ⟨16, 16, [⟨"a", 0, 32⟩]⟩ := by
  refine ⟨_, rfl, by decide⟩

/-- C40: the text determines all of these numbers and names: two structs with the same text have the
same size, alignment and the same fields, by name, offset and size. (Field names are Rust
identifiers, so they contain no quotation mark.) -/
theorem C40_text_injective {tg tg' : Target} {env env' : ForeignEnv} {l l' : Layout}
    {ptr ptr' : Nat} {sizeOf sizeOf' : Ty → Nat} {name name' : String} {fs fs' : List (String × Ty)}
    {d d' : DebugMetrics} (hd : debugMetrics tg env l ptr sizeOf name fs = some d)
    (hd' : debugMetrics tg' env' l' ptr' sizeOf' name' fs' = some d')
    (hq : ∀ f ∈ fs, '"' ∉ f.1.toList) (hq' : ∀ f ∈ fs', '"' ∉ f.1.toList)
    (h : d.text = d'.text) : d = d' := by
  have key : ∀ {tg : Target} {env : ForeignEnv} {l : Layout} {ptr : Nat} {sizeOf : Ty → Nat} {name : String}
      {fs : List (String × Ty)} {d : DebugMetrics}, debugMetrics tg env l ptr sizeOf name fs = some d →
      (∀ f ∈ fs, '"' ∉ f.1.toList) → ∀ f ∈ d.fields, '"' ∉ f.name.toList := by
    intro tg env l ptr sizeOf name fs d hd hq
    have hne : fs ≠ [] := by rintro rfl; cases hd
    simp only [debugMetrics, if_neg hne, Option.bind_eq_some_iff, Option.map_eq_some_iff] at hd
    obtain ⟨i, -, ds, hds, rfl⟩ := hd
    clear env name hne
    induction fs generalizing ds with
    | nil =>
      simp only [List.mapM_nil, Option.pure_def, Option.some.injEq] at hds
      subst hds
      simp
    | cons f r ih =>
      rw [mapM_option_cons] at hds
      simp only [Option.bind_eq_some_iff, Option.map_eq_some_iff] at hds
      obtain ⟨x, ⟨o, -, rfl⟩, ds, hds, rfl⟩ := hds
      intro y hy
      rcases List.mem_cons.1 hy with rfl | hy
      · exact hq f (by simp)
      · exact ih (fun g hg => hq g (by simp [hg])) ds hds y hy
  exact text_inj (key hd hq) (key hd' hq') h

/-- Concretely: `struct S { a: bool, b: mint::Vector3<f32>, c: f32 }` in std140. `sizeOf` gives the
sizes of `bool`, `Vector3<f32>` and `f32` in Rust. -/
example : ∃ d, debugMetrics x86_64 Ex.env .std140 8
      (fun t => match t with | .bool => 1 | .math _ => 12 | _ => 4) "S"
      [("a", .bool), ("b", Ex.vec3), ("c", Ex.f32)] = some d ∧
    d = ⟨32, 16, [⟨"a", 0, 1⟩, ⟨"b", 16, 12⟩, ⟨"c", 28, 4⟩]⟩ ∧
    d.text = "Size 32, Align 16, fields: [\n    Field {\n        name: \"a\",\n        offset: 0,\n        size: 1,\n    },\n    Field {\n        name: \"b\",\n        offset: 16,\n        size: 12,\n    },\n    Field {\n        name: \"c\",\n        offset: 28,\n        size: 4,\n    },\n]" := by
  refine ⟨_, rfl, by decide, by decide +kernel⟩

end Crevice
