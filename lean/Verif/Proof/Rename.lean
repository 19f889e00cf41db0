import Verif.Spec.Rename
import Verif.Proof.StructImage
import Verif.Proof.PlaceSpec
/-
Renaming structs and fields changes neither layout nor bytes.
-/
namespace Crevice

theorem RenamedFields_iff (fs gs : List (String × Ty)) :
    RenamedFields fs gs ↔ All2 (fun (f g : String × Ty) => f.2.Renamed g.2) fs gs := by
  induction fs generalizing gs with
  | nil =>
    constructor
    · intro h; cases gs with
      | nil => exact .nil
      | cons g r => exact absurd h (by simp [RenamedFields])
    · intro h; cases h; simp [RenamedFields]
  | cons f r ih =>
    obtain ⟨n, t⟩ := f
    constructor
    · intro h; cases gs with
      | nil => exact absurd h (by simp [RenamedFields])
      | cons g s =>
        obtain ⟨m, u⟩ := g
        simp only [RenamedFields] at h
        exact .cons h.1 ((ih s).1 h.2)
    · intro h
      cases h with
      | @cons _ g _ s h1 h2 =>
        obtain ⟨m, u⟩ := g
        simp only [RenamedFields]
        exact ⟨h1, (ih s).2 h2⟩

theorem implEnd_congr {is js : List (String × Impl)} (h : All2 (fun (a b : String × Impl) =>
    a.2.alignment = b.2.alignment ∧ a.2.out.natSize = b.2.out.natSize) is js) (cur : Nat) :
    implEnd cur is = implEnd cur js ∧ is.map (fun f => f.2.alignment) = js.map fun f => f.2.alignment := by
  induction h generalizing cur with
  | nil => exact ⟨rfl, rfl⟩
  | @cons a b l m h _ ih =>
    obtain ⟨n, a⟩ := a
    obtain ⟨n', b⟩ := b
    simp only at h
    simp only [implEnd, List.map_cons, h.1, h.2]
    exact ⟨(ih _).1, by rw [(ih 0).2]⟩

theorem Impl.natSize_of_size {tg : Target} (htg : tg.Valid) {i j : Impl} (hi : Good i) (hj : Good j)
    (h : i.out.size tg = j.out.size tg) : i.out.natSize = j.out.natSize := by
  rwa [size_eq_natSize htg hi.packed, size_eq_natSize htg hj.packed] at h

/-- Renaming does not change alignment and size. -/
theorem rename_layout {tg : Target} (htg : tg.Valid) {env : ForeignEnv} {l : Layout} {t u : Ty}
    (hr : t.Renamed u) {i j : Impl} (hi : resolve tg env l t = some i)
    (hj : resolve tg env l u = some j) :
    i.alignment = j.alignment ∧ i.out.size tg = j.out.size tg := by
  induction t using Ty.ind generalizing u i j with
  | hs s =>
    cases u <;> simp only [Ty.Renamed] at hr
    subst hr; rw [hi] at hj; cases hj; exact ⟨rfl, rfl⟩
  | hb =>
    cases u <;> simp only [Ty.Renamed] at hr
    rw [hi] at hj; cases hj; exact ⟨rfl, rfl⟩
  | hm m =>
    cases u <;> simp only [Ty.Renamed] at hr
    subst hr; rw [hi] at hj; cases hj; exact ⟨rfl, rfl⟩
  | hf n =>
    cases u <;> simp only [Ty.Renamed] at hr
    subst hr; rw [hi] at hj; cases hj; exact ⟨rfl, rfl⟩
  | hu n t _ =>
    cases u <;> simp only [Ty.Renamed] at hr
    obtain ⟨rfl, rfl⟩ := hr; rw [hi] at hj; cases hj; exact ⟨rfl, rfl⟩
  | ho l' t _ =>
    cases u <;> simp only [Ty.Renamed] at hr
    obtain ⟨rfl, rfl⟩ := hr; rw [hi] at hj; cases hj; exact ⟨rfl, rfl⟩
  | hd t ih =>
    cases u <;> simp only [Ty.Renamed] at hr
    cases l with
    | std430 => simp [resolve] at hi
    | std140 =>
      simp only [resolve, Option.map_eq_some_iff] at hi hj
      obtain ⟨a, ha, rfl⟩ := hi
      obtain ⟨b, hb, rfl⟩ := hj
      obtain ⟨h1, h2⟩ := ih hr ha hb
      simp only [dynamicImpl, h1, RTy.size, h2, and_self]
  | hst n fs ih =>
    cases u with
    | struct m gs =>
      simp only [Ty.Renamed] at hr
      rw [RenamedFields_iff] at hr
      have hgi := good_resolve htg hi
      have hgj := good_resolve htg hj
      obtain ⟨is, his, hok, rfl⟩ := resolve_struct hi
      obtain ⟨js, hjs, hok', rfl⟩ := resolve_struct hj
      have ha := resolveFields_all2 his
      have hb := resolveFields_all2 hjs
      have hg : ∀ f ∈ is, Good f.2 := ha.forall_right fun a _ b _ hr => good_resolve htg hr.2
      have hg' : ∀ f ∈ js, Good f.2 := hb.forall_right fun a _ b _ hr => good_resolve htg hr.2
      have hab : All2 (fun (a b : String × Impl) =>
          a.2.alignment = b.2.alignment ∧ a.2.out.natSize = b.2.out.natSize) is js := by
        clear hi hj hgi hgj hok hok' his hjs hg hg'
        induction hr generalizing is js with
        | nil => cases ha; cases hb; exact .nil
        | @cons f g l' m' h1 _ ihr =>
          cases ha with
          | @cons _ a _ is' ha1 ha2 =>
          cases hb with
          | @cons _ b _ js' hb1 hb2 =>
            refine .cons ?_ (ihr (fun f hf => ih f (List.mem_cons_of_mem _ hf)) is' js' ha2 hb2)
            obtain ⟨e1, e2⟩ := ih f (by simp) h1 ha1.2 hb1.2
            exact ⟨e1, Impl.natSize_of_size htg (good_resolve htg ha1.2) (good_resolve htg hb1.2) e2⟩
      obtain ⟨c1, c2⟩ := implEnd_congr hab 0
      have hs : structAl l is = structAl l js := by simp only [structAl, c2]
      refine ⟨hs, ?_⟩
      rw [size_eq_natSize htg hgi.packed, size_eq_natSize htg hgj.packed]
      show natSizeFields (genFields tg (structAl l is) 0 0 is) =
        natSizeFields (genFields tg (structAl l js) 0 0 js)
      rw [derive_size htg hg, derive_size htg hg', c1, hs]
    | _ => simp [Ty.Renamed] at hr

theorem renamed_vals_field {tg : Target} {env : ForeignEnv} {fs : List (String × Ty)}
    {vs ws : List (String × RVal)} (h : RenamedVals fs vs ws) (hn : HasVals tg env fs vs) :
    fs.length = vs.length ∧ vs.length = ws.length ∧
      ∀ k (h1 : k < fs.length) (h2 : k < vs.length) (h3 : k < ws.length),
        fs[k].2.RenamedVal vs[k].2 ws[k].2 := by
  induction fs generalizing vs ws with
  | nil =>
    cases vs <;> cases ws <;> simp [RenamedVals] at h ⊢
  | cons f r ih =>
    obtain ⟨n, t⟩ := f
    cases vs with
    | nil => simp [RenamedVals] at h
    | cons v vs =>
      cases ws with
      | nil => simp [RenamedVals] at h
      | cons w ws =>
        obtain ⟨_, v⟩ := v
        obtain ⟨_, w⟩ := w
        simp only [RenamedVals] at h
        simp only [HasVals] at hn
        obtain ⟨h1, h2, h3⟩ := ih h.2 hn.2.2
        refine ⟨by simp [h1], by simp [h2], ?_⟩
        intro k k1 k2 k3
        cases k with
        | zero => exact h.1
        | succ k => exact h3 k _ _ _

theorem All2.length {α β : Type} {R : α → β → Prop} {l : List α} {m : List β} (h : All2 R l m) :
    l.length = m.length := by
  induction h with
  | nil => rfl
  | cons _ _ ih => simp [ih]

theorem All2.get {α β : Type} {R : α → β → Prop} {l : List α} {m : List β} (h : All2 R l m) :
    ∀ k (h1 : k < l.length) (h2 : k < m.length), R l[k] m[k] := by
  induction h with
  | nil => intro k hk; simp at hk
  | cons h _ ih =>
    intro k h1 h2
    cases k with
    | zero => exact h
    | succ k => exact ih k _ _

/-- Renaming does not change the bytes. -/
theorem rename_bytes {tg : Target} (htg : tg.Valid) {env : ForeignEnv} (henv : env.Lawful tg)
    {l : Layout} {t u : Ty} (hr : t.Renamed u) {i j : Impl} (hi : resolve tg env l t = some i)
    (hj : resolve tg env l u = some j) {v w : RVal} (hv : t.HasVal tg env v)
    (hw : u.HasVal tg env w) (hvw : t.RenamedVal v w) {o p : RVal} (ho : i.asStd v = some o)
    (hp : j.asStd w = some p) : enc tg.endian o = enc tg.endian p := by
  induction t using Ty.ind generalizing u i j v w o p with
  | hs s =>
    cases u <;> simp only [Ty.Renamed] at hr
    subst hr; rw [hi] at hj; cases hj
    simp only [Ty.RenamedVal] at hvw
    subst hvw; rw [ho] at hp; cases hp; rfl
  | hb =>
    cases u <;> simp only [Ty.Renamed] at hr
    rw [hi] at hj; cases hj
    simp only [Ty.RenamedVal] at hvw
    subst hvw; rw [ho] at hp; cases hp; rfl
  | hm m =>
    cases u <;> simp only [Ty.Renamed] at hr
    subst hr; rw [hi] at hj; cases hj
    simp only [Ty.RenamedVal] at hvw
    subst hvw; rw [ho] at hp; cases hp; rfl
  | hf n =>
    cases u <;> simp only [Ty.Renamed] at hr
    subst hr; rw [hi] at hj; cases hj
    simp only [Ty.RenamedVal] at hvw
    subst hvw; rw [ho] at hp; cases hp; rfl
  | hu n t _ =>
    cases u <;> simp only [Ty.Renamed] at hr
    obtain ⟨rfl, rfl⟩ := hr; rw [hi] at hj; cases hj
    simp only [Ty.RenamedVal] at hvw
    subst hvw; rw [ho] at hp; cases hp; rfl
  | ho l' t _ =>
    cases u <;> simp only [Ty.Renamed] at hr
    obtain ⟨rfl, rfl⟩ := hr; rw [hi] at hj; cases hj
    simp only [Ty.RenamedVal] at hvw
    subst hvw; rw [ho] at hp; cases hp; rfl
  | hd t ih =>
    cases u <;> simp only [Ty.Renamed] at hr
    cases l with
    | std430 => simp [resolve] at hi
    | std140 =>
      simp only [resolve, Option.map_eq_some_iff] at hi hj
      obtain ⟨a, ha, rfl⟩ := hi
      obtain ⟨b, hb, rfl⟩ := hj
      obtain ⟨v, rfl, hv⟩ := hv
      obtain ⟨w, rfl, hw⟩ := hw
      simp only [Ty.RenamedVal] at hvw
      simp only [dynamicImpl, Option.map_eq_some_iff] at ho hp
      obtain ⟨o, ho, rfl⟩ := ho
      obtain ⟨p, hp, rfl⟩ := hp
      simpa only [enc] using ih hr ha hb hv hw hvw ho hp
  | hst n fs ih =>
    cases u with
    | struct m gs =>
      obtain ⟨hal, _⟩ := rename_layout htg hr hi hj
      obtain ⟨ws, hws, he⟩ := struct_image htg henv hi hv ho
      obtain ⟨ws', hws', he'⟩ := struct_image htg henv hj hw hp
      simp only [Ty.Renamed] at hr
      rw [RenamedFields_iff] at hr
      obtain ⟨vs, rfl, hvs⟩ := hv
      obtain ⟨us, rfl, hus⟩ := hw
      simp only [Ty.RenamedVal] at hvw
      obtain ⟨l1, l2, hfield⟩ := renamed_vals_field hvw hvs
      have hvn := (HasVals_iff _ _ _ _).1 hvs
      have hun := (HasVals_iff _ _ _ _).1 hus
      -- names are distinct, so looking a field up by name finds it by position
      have hnod : ∀ {n : String} {fs : List (String × Ty)} {i : Impl} {vs : List (String × RVal)},
          resolve tg env l (.struct n fs) = some i → All2 (fun (f : String × Ty) (v : String × RVal) =>
            f.1 = v.1 ∧ Ty.HasVal tg env f.2 v.2) fs vs →
          ∀ k (h1 : k < fs.length) (h2 : k < vs.length),
            (RVal.struct vs).field fs[k].1 = some vs[k].2 := by
        intro n fs i vs hi hvn k h1 h2
        obtain ⟨is, his, hok, rfl⟩ := resolve_struct hi
        have hnm : vs.map Prod.fst = is.map Prod.fst := by
          rw [resolveFields_names his]
          clear hi his hok
          clear h1 h2
          induction hvn with
          | nil => rfl
          | cons hr _ ih => simp only [List.map_cons]; rw [ih, hr.1]
        have : (fs[k].1, vs[k].2) ∈ vs := by
          rw [(hvn.get k h1 h2).1]; exact List.getElem_mem h2
        exact lookup_eq_some_of_mem (by rw [hnm]; exact hok.fnodup) this
      have heq : ws = ws' := by
        apply List.ext_getElem
        · rw [← hws.length, ← hws'.length, hr.length]
        · intro k k1 k2
          have kf : k < fs.length := by rw [hws.length]; exact k1
          have kg : k < gs.length := by rw [hws'.length]; exact k2
          have kv : k < vs.length := by rw [← hvn.length]; exact kf
          have ku : k < us.length := by rw [← hun.length]; exact kg
          obtain ⟨a, x, y, ra, fx, hx, ay, ty, e1, _⟩ := hws.get k kf k1
          obtain ⟨b, x', y', rb, fx', hx', ay', ty', e2, _⟩ := hws'.get k kg k2
          rw [hnod hi hvn k kf kv, Option.some.injEq] at fx
          rw [hnod hj hun k kg ku, Option.some.injEq] at fx'
          subst fx; subst fx'
          have hren := hr.get k kf kg
          obtain ⟨e3, e4⟩ := rename_layout htg hren ra rb
          have e5 := ih fs[k] (List.getElem_mem kf) hren ra rb hx hx' (hfield k kf kv ku) ay ay'
          rw [e1, e2, e3, e4, e5]
      rw [he, he', heq, hal]
    | _ => simp [Ty.Renamed] at hr

end Crevice
