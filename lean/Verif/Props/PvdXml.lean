import Verif.Lemmas.Xml
import Verif.Props.Pvd

/-!
C49: the collection file is xml with one `DataSet` for each plot.
-/

namespace NuTo.Visualize

open Xml

/-- The line that declares xml, which is not part of the element -/
def xmlLine : List Char := chars! "<?xml version=\"1.0\"?>\n"

/-- The collection of plots at some times -/
def collection (name : List Char) (times : List (List Char)) : Node :=
  .elem (chars! "VTKFile") [(chars! "type", chars! "Collection")] [.elem (chars! "Collection") []
    (times.zipIdx.map fun t => .elem (chars! "DataSet")
      [(chars! "timestep", t.1), (chars! "file", name ++ Nat.toDigits 10 t.2 ++ chars! ".vtu")] [])]

theorem chars_xml : "<?xml version=\"1.0\"?>\n".toList = chars! "<?xml version=\"1.0\"?>\n" := by simp

theorem chars_open : "<VTKFile type=\"Collection\">\n".toList = chars! "<VTKFile type=\"Collection\">\n" := by simp

theorem chars_open2 : "<Collection>\n".toList = chars! "<Collection>\n" := by simp

theorem chars_close : "</Collection>\n".toList = chars! "</Collection>\n" := by simp

theorem chars_close2 : "</VTKFile>\n".toList = chars! "</VTKFile>\n" := by simp

theorem chars_set : "<DataSet timestep=\"".toList = chars! "<DataSet timestep=\"" := by simp

theorem chars_file : "\" file=\"".toList = chars! "\" file=\"" := by simp

theorem chars_end : "\"/>\n".toList = chars! "\"/>\n" := by simp

theorem header_chars : pvdHeader = xmlLine ++ (chars! "<VTKFile type=\"Collection\">\n" ++ chars! "<Collection>\n") := by
  delta pvdHeader xmlLine
  rw [← chars_xml, ← chars_open, ← chars_open2]
  simp only [List.append_assoc]

theorem footer_chars : pvdFooter = chars! "</Collection>\n" ++ chars! "</VTKFile>\n" := by
  delta pvdFooter
  rw [← chars_close, ← chars_close2]

theorem entry_chars (time file : List Char) : pvdEntry time file =
    chars! "<DataSet timestep=\"" ++ (time ++ (chars! "\" file=\"" ++ (file ++ chars! "\"/>\n"))) := by
  delta pvdEntry
  rw [← chars_set, ← chars_file, ← chars_end]
  simp only [List.append_assoc]

theorem vtu_chars : ".vtu".toList = chars! ".vtu" := by decide +kernel

theorem reads_entry (time file : List Char) (ht : Plain time) (hf : Plain file) :
    Reads (pvdEntry time file) [.elem (chars! "DataSet") [(chars! "timestep", time), (chars! "file", file)] []] := by
  refine Reads.single fun out => ?_
  have h1 : run (.text [], out) (chars! "<DataSet timestep=\"") =
      (.val (chars! "DataSet").reverse [] (chars! "timestep").reverse [], out) := rfl
  have h2 : ∀ as, run (.after (chars! "DataSet").reverse as, out) (chars! " file=\"") =
      (.val (chars! "DataSet").reverse as (chars! "file").reverse [], out) := fun _ => rfl
  rw [entry_chars]
  simp only [run_append]
  rw [h1, run_lit _ _ _ _ _ ht, h2, run_lit _ _ _ _ _ hf]
  rfl

theorem plain_append {a b : List Char} (ha : Plain a) (hb : Plain b) : Plain (a ++ b) := fun c hc =>
  (List.mem_append.1 hc).elim (ha c) (hb c)

/-- C49: with names and printed times without `"`, `<` and `&`: after every plot, what follows the first line of the collection
file is xml with exactly one `DataSet` per plot, in the order of the plots, with the printed time and the name of the file. -/
theorem C49_xml_partial (names : List (List Char)) (hn : names.Nodup) (name : List Char) (hname : name ∈ names) (hp : Plain name)
    (calls : List PlotCall) (hne : calls ≠ []) (ht : ∀ c ∈ calls, Plain c.1) :
    ∃ t, (plots (PostProcess.make names) calls).dir (pvdName name) = some (xmlLine ++ t) ∧
      Xml.parse t = some (collection name (calls.map Prod.fst)) := by
  rw [C49_pvd names hn name hname calls, if_neg hne]
  have h1 : Reads (calls.zipIdx.flatMap fun ci => pvdEntry ci.1.1 (vtuName name ci.2)) (calls.zipIdx.map fun ci =>
      .elem (chars! "DataSet") [(chars! "timestep", ci.1.1), (chars! "file", name ++ Nat.toDigits 10 ci.2 ++ chars! ".vtu")] []) := by
    refine Reads.flatMap fun a ha => ?_
    rw [vtuName, vtu_chars]
    refine reads_entry _ _ (ht _ ?_) (plain_append (plain_append hp (plain_digits _)) (by simp [Plain]))
    exact (List.mem_zipIdx' ha).2 ▸ List.getElem_mem _
  have h2 : Reads (chars! "<Collection>\n" ++ (_ ++ chars! "</Collection>\n")) [.elem (chars! "Collection") [] _] :=
    Reads.elem (fun _ => rfl) h1 (fun _ => rfl)
  have h3 : Reads (chars! "<VTKFile type=\"Collection\">\n" ++ (_ ++ chars! "</VTKFile>\n"))
    [.elem (chars! "VTKFile") [(chars! "type", chars! "Collection")] _] := Reads.elem (fun _ => rfl) h2 (fun _ => rfl)
  have h4 := h3
  rw [show Node.elem (chars! "VTKFile") [(chars! "type", chars! "Collection")] _ = collection name (calls.map Prod.fst) by
    rw [collection, List.zipIdx_map, List.map_map]; rfl] at h4
  refine ⟨_, ?_, parse_of_reads h4⟩
  rw [pvdAfter, header_chars, footer_chars]
  simp only [List.append_assoc]

/-- C49 fails for names with a quote: what follows the first line is not xml, so no plot can be read back. -/
theorem C49_quote_counterexample :
    ∃ t, (plots (PostProcess.make [chars! "a\"b"]) [(chars! "1", fun _ => [])]).dir (pvdName (chars! "a\"b")) =
      some (xmlLine ++ t) ∧ Xml.parse t = none := by
  rw [C49_pvd _ (by simp) _ (List.mem_singleton.2 rfl), if_neg (by simp)]
  refine ⟨(pvdAfter (chars! "a\"b") [(chars! "1", fun _ => [])]).drop 22, ?_, ?_⟩
  · decide +kernel
  · decide +kernel

example : ∃ calls : List PlotCall, calls ≠ [] ∧ ∀ c ∈ calls, Plain c.1 :=
  ⟨[(chars! "0.0", fun _ => []), (chars! "0.5", fun _ => [])], by simp, by simp [Plain]⟩

end NuTo.Visualize
