"""Generate lean/Verif/Writer/Schema.lean from the three writer classes of /repo (read as text)."""
import ast, os
R = "/repo/dedop/data/output/"
VEC_LOOKS = ("beam_angles_surf", "look_angles_surf", "beam_angles_start_stop", "stack_mask_vector_start_stop",
             "sigma0_scaling_factor_beam")
VEC_SAMPLES = ("waveform_multilooked",)
MAT = ("stack_i", "stack_q")
DIM = {"max_multi_stack_ind": "looks", "echo_sample_ind": "samples"}
out = []


def names(path, cls):
    for n in ast.walk(ast.parse(open(path).read())):
        if isinstance(n, ast.ClassDef) and n.name == cls:
            return {s.targets[0].id: s.value.value for s in n.body if isinstance(s, ast.Assign)}


def chunk(items):
    return "[\n    " + ",\n    ".join(items) + "]"


def gen(file, cls, enum, tag):
    path = R + file
    vals = names(path, enum)
    for n in ast.parse(open(path).read()).body:
        if isinstance(n, ast.ClassDef) and n.name == cls:
            break
    init = [f for f in n.body if getattr(f, "name", "") == "__init__"][0]
    wr = [f for f in n.body if getattr(f, "name", "") == "write_record"][0]
    defs = []
    for c in ast.walk(init):
        if isinstance(c, ast.Call) and getattr(c.func, "attr", "") == "define_variable":
            dims = [e.attr for e in c.args[2].elts]
            assert dims[0].startswith("time_")
            ds = ["." + DIM[d] for d in dims[1:]]
            defs.append((c.lineno, '("%s", [%s])' % (vals[c.args[0].attr], ", ".join(ds))))
    writes = []
    for c in ast.walk(wr):
        if isinstance(c, ast.Call) and getattr(c.func, "attr", "") == "write_record":
            for k in c.keywords:
                t = ast.dump(k.value)
                ids = {getattr(x, "attr", getattr(x, "id", None)) for x in ast.walk(k.value)}
                if isinstance(k.value, ast.Constant) and k.value.value is None:
                    kind = ".missing"
                elif ids & set(VEC_LOOKS):
                    kind = ".vector .looks"
                elif ids & set(VEC_SAMPLES):
                    kind = ".vector .samples"
                elif ids & set(MAT):
                    kind = ".matrix .looks .samples"
                else:
                    kind = ".scalar"
                writes.append('("%s", %s)' % (k.arg, kind))
    d = [x for _, x in sorted(defs)]
    out.append(f"/-- The variables defined by `{cls}.__init__` (dedop/data/output/{file} {init.lineno}-{wr.lineno - 1}): name and\n"
               f"dimensions after the record dimension. -/\ndef {tag}Schema : Schema := {chunk(d)}\n")
    out.append(f"/-- The values `{cls}.write_record` passes on (dedop/data/output/{file} {wr.lineno}-{wr.end_lineno}): name and shape. -/\n"
               f"def {tag}Record : List (String × Shape) := {chunk(writes)}\n")


gen("l1b_writer.py", "L1BWriterExtended", "L1BVariables", "extended")
gen("l1b_writer.py", "L1BWriter", "L1BVariables", "s3")
gen("l1bs_writer.py", "L1BSWriter", "L1BSVariables", "l1bs")
head = """import Verif.Writer.Model
/-!
# The variables of the three output files

Generated by tools/schema.py from the text of the writer classes.  The shapes of the written values are those of the
arrays the algorithms allocate: `n_looks_stack` beams (stack_gathering.py 74-105, multilooking.py 240-252), the number of
beams of the stack for the per-beam sigma0 (sigma_zero_scaling.py 18-21), zero-padded samples (multilooking.py 235-237) and
the range-compressed stack.
-/
namespace Dedop.Writer

"""
root = os.path.join(os.path.dirname(os.path.abspath(__file__)), "..")
open(os.path.join(root, "lean/Verif/Writer/Schema.lean"), "w").write(head + "\n".join(out) + "\nend Dedop.Writer\n")
