import Verif.Model.EnhancedData
/-
Model of a parse whose handlers bind another dict to `handler_parameters.data_shared`.

`Verif.Model.Parser` takes `data_shared` as one value that all handlers of a parse work on. That is right as long as
they change the dict they are given. A handler may also bind another dict to `handler_parameters.data_shared`, and then
it matters which `HandlerParameters` object it was given: `_parse_section_r` makes a new one for every section it
enters and for each of the two hooks (ConfigParserEnhanced.py:892-914, 917-919, 1008-1010), each with a copy of the
reference its parent holds (1071-1095), while all options of one section get the object of that section (954-1003).

Here `δ` is the reference held in `data_shared`; the contents of the dicts are part of `ω`, which every handler may
change. Everything that does not depend on the scope of the reference is taken from `Verif.Model.Parser`. Not modelled:
handlers that assign `section_root` or `data_internal`.
-/
namespace CPE.Rb
open CPE
variable {δ ω : Type}

/-- Work done with a `HandlerParameters` object of its own, made by `_new_handler_parameters(handler_parameters)`
(ConfigParserEnhanced.py:1071-1095): it starts with the reference of the caller, and on return the caller still has
its own. (After an exception there is no object left to look at.) -/
def aside (m : M (World δ ω) Unit) : M (World δ ω) Unit := fun w =>
  match m w with
  | (.ok (), w') => (.ok (), { w' with shared := w.shared })
  | (.exc e, w') => (.exc e, w')
  | (.diverge, w') => (.diverge, w')

variable (E : Env δ ω)

/-- ConfigParserEnhanced.py:930-1024: a section, after the initialization phase, where its `HandlerParameters` object
exists; `rec` is `_parse_section_r` as `_handler_use` calls it (1301). -/
def parseMain (rec : Str → M (World δ ω) Unit) (root sec : Str) (fin : Bool) : M (World δ ω) Unit := do
  logAdd E (.sectionEntry sec)
  match E.cfg.optionNames sec with
  | none => M.raise .keyError
  | some names =>
    addSection sec
    M.modify fun w => { w with processed := setAdd w.processed sec }
    M.forEach names (processOption E rec root sec)
    if fin && sec = root then
      aside (callHandler E E.hookFinal
        { sectionName := sec, sectionRoot := root, handlerName := py!"handler_finalize" })
    let w ← M.read
    if sec ∈ w.processed then
      M.modify fun w => { w with processed := setDel w.processed sec }
      logAdd E (.sectionExit sec)
    else M.raise .keyError

/-- ConfigParserEnhanced.py:916-1024 `_parse_section_r` once its `HandlerParameters` object exists. The sections it
enters, DEFAULT and those named by `use`, get objects of their own (908-914). -/
def parseR : Nat → Str → Str → Bool → Bool → M (World δ ω) Unit
  | 0, _, _, _, _ => fun w => (.diverge, w)
  | n + 1, root, sec, init, fin => do
    if init && sec = root then
      aside (callHandler E E.hookInit
        { sectionName := sec, sectionRoot := root, handlerName := py!"handler_initialize" })
      if E.cfg.hasSection E.defaultName then
        aside (parseR n root E.defaultName false false)
    parseMain E (fun t => aside (parseR n root t true false)) root sec fin

/-- ConfigParserEnhanced.py:892-907, 1017-1024: the outermost `_parse_section_r`, which returns what its own object
holds in `data_shared`. -/
def parseRoot (fuel : Nat) (sec : Str) (init fin : Bool) : M (World δ ω) δ := do
  M.modify fun w => { w with processed := [], shared := E.emptyShared, log := [],
                             checked := setAdd w.checked sec }
  parseR E fuel sec sec init fin
  let w ← M.read
  pure w.shared

/-- ConfigParserEnhanced.py:653-686 `parse_section`. -/
def parseSection (fuel : Nat) (s : Str) (init fin : Bool) : M (Obj δ ω) δ := do
  M.modify fun o => { o with log := [] }
  if s = [] then M.raise .valueError
  else do
    let r ← liftW (parseRoot E fuel s init fin)
    M.modify fun o => { o with lastResult := some r }
    pure r

end CPE.Rb
