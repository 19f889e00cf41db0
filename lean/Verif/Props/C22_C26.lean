import Verif.Proof.Block
/-
C22 blocks, C23 field-wise writing, C26 dynamic uniforms.
-/
namespace Crevice

/-! ## C22 -/

/-- C22: write the members of a block in order with a fresh Writer, each a value or a slice of
values of one type. Provided std140 does not round the alignment of array elements (`ElemsOk`) and
all arrays but the last fill their slots (`Full`; both hold of slices of derived structs), each write
returns the offset GLSL gives the member, and a shader that reads the delivered bytes as the block
sees the values written. The last member may be an array of any length, including 0. -/
theorem C22_block {tg : Target} (htg : tg.Valid) {env : ForeignEnv} (henv : env.Lawful tg) {l : Layout}
    (es : List (String × Entry tg env l)) (hok : ∀ e ∈ es, e.2.ElemsOk)
    (hfull : ∀ e ∈ es.dropLast, e.2.Full) {ms : List (String × Glsl.Ty)}
    (hms : blockMembers es = some ms) {σ ε : Type} {k : Sink σ ε} (hk : k.Lawful) {s : σ}
    {os : List Nat} {w' : Writer σ}
    (h : (Writer.new s).history k (es.map fun e => e.2.arg) = (os.map .ok, w')) :
    ∃ B vs, k.delivered w'.sink = k.delivered s ++ B ∧ B.length = w'.len ∧
      blockValues es = some vs ∧
      Glsl.read tg.endian l (.struct "Block" ms) B 0 = some (.struct vs) ∧
      os.length = es.length ∧
      ∀ m (hm : m < es.length) (hm' : m < os.length), es[m].2.arg.leaves ≠ [] →
        (Glsl.memberOffsets l 0 ms)[m]? = some (es[m].1, os[m]) := by
  have hwf : ∀ v ∈ es.map (fun e => e.2.arg), v.Wf := by
    intro v hv
    obtain ⟨e, _, rfl⟩ := List.mem_map.1 hv
    exact e.2.wf htg henv
  obtain ⟨h1, h2, h3⟩ := history_ok hk hwf h
  rw [entries_leaves] at h2 h3
  simp only [Writer.new] at h1 h2 h3
  obtain ⟨⟨vs, hvs, hrd⟩, hof⟩ := block_read htg henv es hok hfull hms 0
    (B := image 0 (entriesStds es)) (fun m hm => by simpa using (image_slice 0 _ m hm).2)
  refine ⟨_, vs, h3, ?_, hvs, ?_, ?_, ?_⟩
  · have := image_length 0 (entriesStds es)
    rw [Nat.zero_add] at this
    rw [this, Writer.len, h2]
  · simp only [Glsl.read, hrd]; rfl
  · rw [h1, returned_length]; simp
  · intro m hm hm' hne
    rw [Entry.leaves] at hne
    rw [hof m hm hne]
    simp [h1]

/-- C22, the documented use: single members, then a slice of derived structs. No other condition is
needed. -/
theorem C22_header_then_structs {tg : Target} (htg : tg.Valid) {env : ForeignEnv}
    (henv : env.Lawful tg) {l : Layout} (hdr : List (String × Item tg env l)) (n : String)
    {name : String} {fs : List (String × Ty)} (ys : List (Item tg env l))
    (hy : ∀ y ∈ ys, y.ty = .struct name fs) {ms : List (String × Glsl.Ty)}
    (hms : glslMembers (hdr.map fun f => (f.1, f.2.ty)) = some ms) {g : Glsl.Ty}
    (hg : (Ty.struct name fs).glsl = some g) {σ ε : Type} {k : Sink σ ε} (hk : k.Lawful) {s : σ}
    {os : List Nat} {o : Nat} {w' : Writer σ}
    (h : (Writer.new s).history k ((hdr.map fun f => f.2.arg) ++ [.slice (ys.map Item.arg)]) =
      ((os ++ [o]).map .ok, w')) :
    ∃ B ds es, k.delivered w'.sink = k.delivered s ++ B ∧ B.length = w'.len ∧
      (hdr.mapM fun f => (f.2.ty.denote env f.2.val).map fun d => (f.1, d)) = some ds ∧
      (ys.mapM fun y => y.ty.denote env y.val) = some es ∧
      Glsl.read tg.endian l (.struct "Block" (ms ++ [(n, .array g ys.length)])) B 0 =
        some (.struct (ds ++ [(n, .array es)])) ∧
      (Glsl.memberOffsets l 0 ms).map Prod.snd = os ∧
      (ys ≠ [] → (Glsl.memberOffsets l 0 (ms ++ [(n, .array g ys.length)])).map Prod.snd =
        os ++ [o]) := by
  let E : List (String × Entry tg env l) :=
    (hdr.map fun f => (f.1, Entry.one f.2)) ++ [(n, .many (.struct name fs) ys)]
  have hbm : ∀ (hdr : List (String × Item tg env l)) (ms : List (String × Glsl.Ty)),
      glslMembers (hdr.map fun f => (f.1, f.2.ty)) = some ms →
      blockMembers ((hdr.map fun f => (f.1, Entry.one f.2)) ++ [(n, .many (.struct name fs) ys)]) =
        some (ms ++ [(n, .array g ys.length)]) := by
    intro hdr
    induction hdr with
    | nil =>
      intro ms hms
      simp only [List.map_nil, glslMembers, Option.some.injEq] at hms
      subst hms
      simp [blockMembers, Entry.glsl, hg]
    | cons f r ih =>
      intro ms hms
      simp only [List.map_cons, glslMembers, Option.bind_eq_some_iff, Option.map_eq_some_iff] at hms
      obtain ⟨g', hg', ms', hms', rfl⟩ := hms
      simp only [List.map_cons, List.cons_append, blockMembers, Entry.glsl, hg', Option.bind_some]
      rw [ih ms' hms']; rfl
  have hbv : ∀ (hdr : List (String × Item tg env l)) (vs : List (String × Glsl.Val)),
      blockValues ((hdr.map fun f => (f.1, Entry.one f.2)) ++ [(n, .many (.struct name fs) ys)]) =
        some vs → ∃ ds es, (hdr.mapM fun f => (f.2.ty.denote env f.2.val).map fun d => (f.1, d)) = some ds ∧
          (ys.mapM fun y => y.ty.denote env y.val) = some es ∧ vs = ds ++ [(n, .array es)] := by
    intro hdr
    induction hdr with
    | nil =>
      intro vs hvs
      simp only [List.map_nil, List.nil_append, blockValues, Entry.denote, Option.bind_eq_some_iff,
        Option.map_eq_some_iff] at hvs
      obtain ⟨_, ⟨es, hes, rfl⟩, a, ha, rfl⟩ := hvs
      simp only [Option.some.injEq] at ha
      subst ha
      exact ⟨[], es, rfl, hes, rfl⟩
    | cons f r ih =>
      intro vs hvs
      simp only [List.map_cons, List.cons_append, blockValues, Entry.denote, Option.bind_eq_some_iff,
        Option.map_eq_some_iff] at hvs
      obtain ⟨d, hd, vs', hvs', rfl⟩ := hvs
      obtain ⟨ds, es, h1, h2, rfl⟩ := ih vs' hvs'
      refine ⟨(f.1, d) :: ds, es, ?_, h2, rfl⟩
      rw [List.mapM_cons, h1, hd]; rfl
  have hargs : E.map (fun e => e.2.arg) = (hdr.map fun f => f.2.arg) ++ [.slice (ys.map Item.arg)] := by
    simp only [E, List.map_append, List.map_map, List.map_cons, List.map_nil, Entry.arg]
    rfl
  have hok : ∀ e ∈ E, e.2.ElemsOk := by
    intro e he
    simp only [E, List.mem_append, List.mem_map, List.mem_singleton] at he
    rcases he with ⟨f, _, rfl⟩ | rfl
    · trivial
    · intro y hy'
      refine ⟨hy y hy', ?_⟩
      cases l with
      | std430 => exact .inl rfl
      | std140 =>
        have hr := y.resolves
        rw [hy y hy'] at hr
        exact .inr (C02_struct_alignment hr).1
  have hfull : ∀ e ∈ E.dropLast, e.2.Full := by
    intro e he
    rw [List.dropLast_concat] at he
    obtain ⟨f, _, rfl⟩ := List.mem_map.1 he
    trivial
  have hbE : blockMembers E = some (ms ++ [(n, .array g ys.length)]) := hbm hdr ms hms
  rw [← hargs] at h
  obtain ⟨B, vs, h1, h2, h3, h4, h5, h6⟩ := C22_block htg henv E hok hfull hbE hk h
  obtain ⟨ds, es, h7, h8, rfl⟩ := hbv hdr vs h3
  have hlen : hdr.length = os.length := by
    simp only [E, List.length_append, List.length_map, List.length_cons, List.length_nil] at h5
    omega
  have hml : ms.length = hdr.length := by
    have := (glslMembers_all2 hms).length
    simpa using this.symm
  have hmol : ∀ (ms : List (String × Glsl.Ty)) cur, (Glsl.memberOffsets l cur ms).length = ms.length := by
    intro ms
    induction ms with
    | nil => intro; rfl
    | cons m r ih => intro cur; obtain ⟨n, t⟩ := m; simp [Glsl.memberOffsets, ih]
  have hpre : (Glsl.memberOffsets l 0 ms).map Prod.snd = os := by
    apply List.ext_getElem
    · simp [hmol, hml, hlen]
    · intro m hm1 hm2
      have hmE : m < E.length := by simp [E]; omega
      have := h6 m hmE (by simp; omega) (by
        rw [Entry.leaves]
        have : E[m].2 = .one (hdr[m]'(by omega)).2 := by
          simp only [E]
          rw [List.getElem_append_left (by simp; omega)]
          simp
        rw [this]; simp [Entry.stds])
      rw [Glsl.memberOffsets_append, List.getElem?_append_left (by rw [hmol]; omega)] at this
      rw [List.getElem_append_left hm2] at this
      rw [List.getElem_map]
      rw [List.getElem?_eq_getElem (by rw [hmol]; omega), Option.some.injEq] at this
      rw [this]
  refine ⟨B, ds, es, h1, h2, h7, h8, h4, hpre, ?_⟩
  intro hne
  rw [Glsl.memberOffsets_append, List.map_append, hpre]
  congr 1
  have hmE : os.length < E.length := by simp [E]; omega
  have := h6 os.length hmE (by simp) (by
    have : E[os.length].2 = .many (.struct name fs) ys := by
      simp only [E]
      rw [List.getElem_append_right (by simp; omega)]
      simp [hlen]
    rw [this, Entry.leaves]
    simpa [Entry.stds] using hne)
  rw [Glsl.memberOffsets_append, List.getElem?_append_right (by rw [hmol]; omega)] at this
  have e0 : os.length - (Glsl.memberOffsets l 0 ms).length = 0 := by rw [hmol]; omega
  rw [e0] at this
  simp only [Glsl.memberOffsets, List.getElem?_cons_zero, Option.some.injEq, Prod.mk.injEq,
    List.getElem_concat_length] at this ⊢
  simp [this.2]

/-- C22, why `Full` is needed: the Writer does not write the padding after the last element of an
array. After a slice of one `vec3` it puts an `f32` at offset 12, where GLSL's
`vec3 a[1]; float b;` has it at 16. -/
theorem C22_exception (l : Layout) : ∃ (x y : Item x86_64 Ex.env l) (w' : Writer (List Byte)),
    x.ty = Ex.vec3 ∧ y.ty = Ex.f32 ∧
    (Writer.new []).history (vecSink Unit) [.slice [x.arg], y.arg] = ([0, 12].map .ok, w') ∧
    Glsl.memberOffsets l 0 [("a", .array (.vec .float 3) 1), ("b", .scalar .float)] =
      [("a", 0), ("b", 16)] := by
  have hv : Ex.vec3.HasVal x86_64 Ex.env (Ex.v3 (Ex.flt 1) (Ex.flt 2) (Ex.flt 3)) :=
    Ex.uniform3 (Ex.flt_hasVal _) (Ex.flt_hasVal _) (Ex.flt_hasVal _)
  obtain ⟨i, hi, hia, his⟩ : ∃ i, resolve x86_64 Ex.env l Ex.vec3 = some i ∧ i.alignment = 16 ∧
      i.out.size x86_64 = 12 := by
    cases l <;> refine ⟨_, rfl, ?_, ?_⟩ <;> decide
  obtain ⟨j, hj, hja⟩ : ∃ j, resolve x86_64 Ex.env l Ex.f32 = some j ∧ j.alignment = 4 := by
    cases l <;> exact ⟨_, rfl, rfl⟩
  obtain ⟨x, hx1, _, hx2⟩ := Item.exists Ex.x86_64_valid Ex.env_lawful hi hv
  obtain ⟨y, hy1, _, hy2⟩ := Item.exists (v := Ex.flt 7) Ex.x86_64_valid Ex.env_lawful hj ⟨_, rfl⟩
  have hxl := x.length Ex.x86_64_valid Ex.env_lawful
  obtain ⟨w', h, _⟩ := history_infallible (vecSink_infallible Unit) (Writer.new [])
    (vs := [.slice [x.arg], y.arg]) (by
      intro v hv
      simp only [List.mem_cons, List.not_mem_nil, or_false] at hv
      rcases hv with rfl | rfl
      · exact wf_slice (items_wf Ex.x86_64_valid Ex.env_lawful [x])
      · exact y.wf Ex.x86_64_valid Ex.env_lawful)
  refine ⟨x, y, w', hx1, hy1, ?_, by cases l <;> decide⟩
  rw [h]
  simp only [returned, x.arg_std, y.arg_std, WVal.firstOffset, WVal.leaves, leavesList, endOf,
    Item.std, hxl, hx2, hy2, hia, his, hja, Writer.new, List.append_nil]
  rfl

/-- The documented example: a count, then a slice of `Light`s, of any length. -/
example (l : Layout) (n : Nat) : ∃ (c x : Item x86_64 Ex.env l) (ms : List (String × Glsl.Ty))
    (g : Glsl.Ty) (os : List Nat) (o : Nat) (w' : Writer (List Byte)),
    c.ty = .scalar .u32 ∧ x.ty = Ex.light ∧ Ex.light.glsl = some g ∧
    glslMembers ([("count", c)].map fun f => (f.1, f.2.ty)) = some ms ∧
    (Writer.new []).history (vecSink Unit)
      (([("count", c)].map fun f => f.2.arg) ++ [.slice ((List.replicate n x).map Item.arg)]) =
        ((os ++ [o]).map .ok, w') := by
  obtain ⟨i, hi⟩ := Ex.light_resolves x86_64 l
  obtain ⟨x, h1, h2, _⟩ := Item.exists Ex.x86_64_valid Ex.env_lawful hi (Ex.light_hasVal _)
  obtain ⟨j, hj⟩ := (resolve_isSome_iff x86_64 Ex.env l (.scalar .u32)).2 (by cases l <;> decide)
  obtain ⟨c, h3, h4, _⟩ := Item.exists (v := .scalar .u32 7) Ex.x86_64_valid Ex.env_lawful hj ⟨_, rfl⟩
  obtain ⟨w', h, _⟩ := history_infallible (vecSink_infallible Unit) (Writer.new [])
    (vs := [c.arg] ++ [.slice ((List.replicate n x).map Item.arg)]) (by
      intro v hv
      simp only [List.cons_append, List.nil_append, List.mem_cons, List.not_mem_nil, or_false] at hv
      rcases hv with rfl | rfl
      · exact c.wf Ex.x86_64_valid Ex.env_lawful
      · exact wf_slice (items_wf Ex.x86_64_valid Ex.env_lawful _))
  refine ⟨c, x, _, _, [_], _, w', h3, h1, Ex.light_glsl, by simp only [List.map_cons, List.map_nil, h3]; rfl, h⟩

/-! ## C23 -/

/-- C23: write the fields of a derived struct in order with a fresh Writer. What is delivered is the
struct's `as_bytes()` without its trailing padding, which is zero and reaches up to the next multiple
of the struct's ALIGNMENT; each write returns the offset of the field in the Output type. -/
theorem C23_fieldwise {tg : Target} (htg : tg.Valid) {env : ForeignEnv} (henv : env.Lawful tg)
    {l : Layout} (x : Item tg env l) {name : String} {fs : List (String × Ty)}
    (hx : x.ty = .struct name fs) (ys : List (Item tg env l)) (hlen : ys.length = fs.length)
    (hys : ∀ m (hm : m < fs.length) (hm' : m < ys.length),
      ys[m].ty = fs[m].2 ∧ x.val.field fs[m].1 = some ys[m].val)
    {σ ε : Type} {k : Sink σ ε} (hk : k.Lawful) {s : σ} {os : List Nat} {w' : Writer σ}
    (h : (Writer.new s).history k (ys.map Item.arg) = (os.map .ok, w')) :
    ∃ img, k.delivered w'.sink = k.delivered s ++ img ∧ img.length = w'.len ∧
      x.bytes = img ++ List.replicate (x.bytes.length - w'.len) 0 ∧
      IsNext x.impl.alignment w'.len x.bytes.length ∧
      ∀ m (hm : m < fs.length) (hm' : m < os.length) (hm'' : m < ys.length),
        x.impl.out.offsetOf tg [fs[m].1] = some (os[m], ys[m].impl.out) := by
  obtain ⟨t, v, i, bs, arg, hres, hval, hbs, harg⟩ := x
  simp only at hx hys ⊢
  subst hx
  simp only [Option.bind_eq_some_iff] at hbs
  obtain ⟨o, ho, hb⟩ := hbs
  obtain ⟨o', ho', hty, _⟩ := (conv_resolve henv hres).as_ok v hval
  rw [ho, Option.some.injEq] at ho'
  subst ho'
  obtain ⟨hb', hbl⟩ := outBytes htg hres hty
  rw [hb, Option.some.injEq] at hb'
  subst hb'
  obtain ⟨ws, hws, himg⟩ := struct_image htg henv hres hval ho
  have hwl : ws.length = fs.length := hws.length.symm
  have hw : ws = ys.map Item.std := by
    apply List.ext_getElem
    · simp [hwl, hlen]
    · intro m hm1 hm2
      have hmf : m < fs.length := by omega
      have hmy : m < ys.length := by omega
      obtain ⟨j, a, y, h1, h2, h3, h4, h5, h6, h7⟩ := hws.get m hmf hm1
      obtain ⟨e1, e2⟩ := hys m hmf hmy
      rw [List.getElem_map]
      rw [h2, Option.some.injEq] at e2
      have hr := ys[m].resolves
      rw [e1, h1, Option.some.injEq] at hr
      have hby := ys[m].bytes_eq
      rw [← e2, ← hr, h4, Option.bind_some, (outBytes htg h1 h5).1, Option.some.injEq] at hby
      rw [h6, Item.std, ← hr, hby]
  obtain ⟨h1, h2, h3⟩ := history_ok hk (items_wf htg henv ys) h
  rw [items_returned, ← hw] at h1
  rw [items_leaves, ← hw] at h2 h3
  simp only [Writer.new] at h1 h2 h3
  have hil := image_length 0 ws
  rw [Nat.zero_add] at hil
  have hle := le_nextOffset (endOf 0 ws) i.alignment
  have hbl2 : (enc tg.endian o).length = nextOffset (endOf 0 ws) i.alignment := by
    rw [himg, List.length_append, List.length_replicate]; omega
  refine ⟨_, h3, by rw [hil, Writer.len, h2], ?_, ?_, ?_⟩
  · rw [hbl2, Writer.len, h2]; exact himg
  · rw [hbl2, Writer.len, h2]; exact isNext_nextOffset _ _
  · obtain ⟨is, offs, fin, g1, g2, g3, g4⟩ := C03_placement htg hres
    have hisl : is.length = fs.length := by simpa using (congrArg List.length g1).symm
    have his : is = ys.map Item.impl := by
      apply List.ext_getElem
      · simp [hisl, hlen]
      · intro m hm1 hm2
        have hmf : m < fs.length := by omega
        have hmy : m < ys.length := by omega
        have e : (fs.map fun f => resolve tg env l f.2)[m]? = (is.map some)[m]? := by rw [g1]
        simp only [List.getElem?_map, List.getElem?_eq_getElem hmf, List.getElem?_eq_getElem hm1,
          Option.map_some, Option.some.injEq] at e
        have hr := ys[m].resolves
        rw [(hys m hmf hmy).1, e, Option.some.injEq] at hr
        rw [List.getElem_map, hr]
    have hp := placed_places 0 ws
    have hsz : (is.map fun j => (j.alignment, j.out.size tg)) =
        ws.map fun x => (x.alignment, x.bytes.length) := by
      rw [his, hw, List.map_map, List.map_map]
      refine List.map_congr_left fun y _ => ?_
      simp [Item.std, y.length htg henv]
    rw [hsz] at g2
    obtain ⟨rfl, _⟩ := g2.unique hp
    intro m hm hm' hm''
    have := g4 m hm (by rw [places_length]; omega) (by omega)
    rw [this]
    simp [h1, his]

/-- C23 applies to every value of every derived struct: its fields are values of convertible types. -/
theorem C23_fields_exist {tg : Target} (htg : tg.Valid) {env : ForeignEnv} (henv : env.Lawful tg)
    {l : Layout} (x : Item tg env l) {name : String} {fs : List (String × Ty)}
    (hx : x.ty = .struct name fs) :
    ∃ ys : List (Item tg env l), ys.length = fs.length ∧
      ∀ m (hm : m < fs.length) (hm' : m < ys.length),
        ys[m].ty = fs[m].2 ∧ x.val.field fs[m].1 = some ys[m].val := by
  obtain ⟨t, v, i, bs, arg, hres, hval, hbs, harg⟩ := x
  simp only at hx ⊢
  subst hx
  simp only [Option.bind_eq_some_iff] at hbs
  obtain ⟨o, ho, _⟩ := hbs
  obtain ⟨ws, hws, _⟩ := struct_image htg henv hres hval ho
  have key : ∀ (gs : List (String × Ty)) (ws : List StdVal),
      All2 (fun (f : String × Ty) (w : StdVal) => ∃ j x y, resolve tg env l f.2 = some j ∧
        v.field f.1 = some x ∧ f.2.HasVal tg env x ∧ j.asStd x = some y ∧ RVal.HasTy j.out y ∧
        w = { alignment := j.alignment, size := j.out.size tg, bytes := enc tg.endian y } ∧
        o.field f.1 = some y) gs ws →
      ∃ ys : List (Item tg env l), ys.length = gs.length ∧
        ∀ m (hm : m < gs.length) (hm' : m < ys.length),
          ys[m].ty = gs[m].2 ∧ v.field gs[m].1 = some ys[m].val := by
    intro gs ws hws
    induction hws with
    | nil => exact ⟨[], rfl, fun m hm => by simp at hm⟩
    | @cons f w gs ws hr _ ih =>
      obtain ⟨j, a, y, h1, h2, h3, _⟩ := hr
      obtain ⟨z, hz1, hz2, _⟩ := Item.exists htg henv h1 h3
      obtain ⟨ys, hl, hys⟩ := ih
      refine ⟨z :: ys, by simp [hl], ?_⟩
      intro m hm hm'
      cases m with
      | zero => simp [hz1, hz2, h2]
      | succ m => simpa using hys m (by simpa using hm) (by simpa using hm')
  exact key fs ws hws

/-- The trailing padding exists in general: `struct { vec3 }` is 16 bytes, its field alone 12. -/
example : ∃ i j, resolve x86_64 Ex.env .std430 (.struct "S" [("v", Ex.vec3)]) = some i ∧
    resolve x86_64 Ex.env .std430 Ex.vec3 = some j ∧ i.out.size x86_64 = 16 ∧ j.out.size x86_64 = 12 := by
  refine ⟨_, _, rfl, rfl, ?_, ?_⟩ <;> decide

/-! ## C26 -/

/-- C26: `DynamicUniform<T>` exists in std140 exactly when `T` is convertible, and not in std430. -/
theorem C26_exists (tg : Target) (env : ForeignEnv) (t : Ty) :
    ((∃ d, resolve tg env .std140 (.dynamic t) = some d) ↔ ∃ i, resolve tg env .std140 t = some i) ∧
      resolve tg env .std430 (.dynamic t) = none := by
  refine ⟨?_, by simp only [resolve]⟩
  simp only [resolve, Option.map_eq_some_iff]
  exact ⟨fun ⟨_, i, h, _⟩ => ⟨i, h⟩, fun ⟨i, h⟩ => ⟨_, i, h, rfl⟩⟩

/-- C26: the ALIGNMENT of `DynamicUniform<T>` is the larger of 256 and `T`'s, and a multiple of both;
size, bytes and conversions are `T`'s. -/
theorem C26_dynamic {tg : Target} (htg : tg.Valid) {env : ForeignEnv} (henv : env.Lawful tg) {t : Ty}
    {d i : Impl} (hd : resolve tg env .std140 (.dynamic t) = some d)
    (hi : resolve tg env .std140 t = some i) :
    d.alignment = max 256 i.alignment ∧ 256 ∣ d.alignment ∧ i.alignment ∣ d.alignment ∧
      d.out.size tg = i.out.size tg ∧
      (∀ v, t.HasVal tg env v → ∃ bs, (i.asStd v).bind (bytesOf tg i.out) = some bs ∧
        (d.asStd (.newtype v)).bind (bytesOf tg d.out) = some bs) ∧
      (∀ v, t.HasVal tg env v → (d.asStd (.newtype v)).bind d.fromStd = some (.newtype v)) := by
  have hgd := (good_resolve htg hd)
  have hgi := (good_resolve htg hi)
  have hdd := hd
  simp only [resolve, Option.map_eq_some_iff] at hd
  obtain ⟨i', hi', rfl⟩ := hd
  rw [hi, Option.some.injEq] at hi'
  subst hi'
  have hal : (dynamicImpl i).alignment = max 256 i.alignment := by
    simp only [dynamicImpl, constMax]; split <;> omega
  have hp : IsPow2 i.alignment := by
    rcases hgi.al with h | ⟨h0, _⟩
    · exact h.1
    · exact absurd ((alignment_zero_iff htg hi).1 h0).1 (by simp)
  refine ⟨hal, ?_, ?_, ?_, ?_, ?_⟩
  · rw [hal]; exact isPow2_256.dvd_max_left hp
  · rw [hal]; exact isPow2_256.dvd_max_right hp
  · rw [size_eq_natSize htg hgd.packed, size_eq_natSize htg hgi.packed]
    simp [dynamicImpl, RTy.natSize]
  · intro v hv
    obtain ⟨o, ho, hty, _⟩ := (conv_resolve henv hi).as_ok v hv
    refine ⟨enc tg.endian o, by simp [ho, (outBytes htg hi hty).1], ?_⟩
    have hty' : RVal.HasTy (dynamicImpl i).out (.newtype o) := by
      simpa [dynamicImpl, RVal.HasTy] using hty
    have := (outBytes htg hdd hty').1
    simp only [dynamicImpl, ho, Option.map_some, Option.bind_some] at this ⊢
    rw [this]
    simp only [enc]
  · intro v hv
    obtain ⟨o, h1, _, h2⟩ := C10_round_trip henv hdd (v := .newtype v) ⟨v, rfl, hv⟩
    rw [h1, Option.bind_some, h2]

/-- C26: every successful write of a `DynamicUniform` lands at the next multiple of 256 (and of `T`'s
ALIGNMENT), and delivers `T`'s bytes there. -/
theorem C26_write {tg : Target} (htg : tg.Valid) {env : ForeignEnv} (henv : env.Lawful tg)
    (x y : Item tg env .std140) (hx : x.ty = .dynamic y.ty) (hxy : x.val = .newtype y.val)
    {σ ε : Type} {k : Sink σ ε} (hk : k.Lawful) {w w' : Writer σ} {off : Nat}
    (h : w.write k x.arg = (.ok off, w')) :
    256 ∣ off ∧ y.impl.alignment ∣ off ∧ w.len ≤ off ∧
      k.delivered w'.sink = k.delivered w.sink ++ List.replicate (off - w.len) 0 ++ y.bytes ∧
      w'.len = off + y.bytes.length := by
  obtain ⟨h1, h2, h3, _⟩ := C17_write htg henv x hk h
  have hr := x.resolves
  rw [hx] at hr
  obtain ⟨ha, hd1, hd2, _, hb, _⟩ := C26_dynamic htg henv hr y.resolves
  obtain ⟨bs, e1, e2⟩ := hb y.val y.hasVal
  have hyb := y.bytes_eq
  have hxb := x.bytes_eq
  rw [e1, Option.some.injEq] at hyb
  rw [hxy, e2, Option.some.injEq] at hxb
  have hdv : x.impl.alignment ∣ off := (h1.2.2 (by rw [ha]; omega)).1
  refine ⟨Nat.dvd_trans hd1 hdv, Nat.dvd_trans hd2 hdv, h1.1, ?_, ?_⟩
  · rw [h2, ← hxb, hyb]
  · rw [h3, ← hxb, hyb]

/-- Dynamic uniforms of `Light` exist and are values as required. -/
example : ∃ x y : Item x86_64 Ex.env .std140, y.ty = Ex.light ∧ x.ty = .dynamic y.ty ∧
    x.val = .newtype y.val := by
  obtain ⟨i, hi⟩ := Ex.light_resolves x86_64 .std140
  obtain ⟨y, h1, h2, _⟩ := Item.exists Ex.x86_64_valid Ex.env_lawful hi (Ex.light_hasVal _)
  obtain ⟨d, hd⟩ := (C26_exists x86_64 Ex.env Ex.light).1.2 ⟨i, hi⟩
  obtain ⟨x, h3, h4, _⟩ := Item.exists (v := .newtype y.val) Ex.x86_64_valid Ex.env_lawful hd
    ⟨_, rfl, by rw [← h1]; exact y.hasVal⟩
  exact ⟨x, y, h1, by rw [h3, h1], h4⟩

end Crevice
