"""Generate lean/Verif/Writer/Defs.lean from the three writer classes of /repo (read as text): the definitions of the
variables with all their attributes, and where the values of a record come from."""
import ast, os, textwrap
from fractions import Fraction
R = "/repo/dedop/data/output/"
out = []


def q(s):
    return '"' + s.replace("\\", "\\\\").replace('"', '\\"') + '"'


def rat(x):
    f = Fraction(repr(x)) if isinstance(x, float) else Fraction(x)
    n = str(f.numerator) if f.numerator >= 0 else "(%d)" % f.numerator
    return n if f.denominator == 1 else "%s / %d" % (n, f.denominator)


def att(n):
    if isinstance(n, ast.BinOp):
        assert isinstance(n.op, ast.Div)
        return ".num (%s / %s)" % (rat(ast.literal_eval(n.left)), rat(ast.literal_eval(n.right)))
    v = ast.literal_eval(n)
    if isinstance(v, str):
        return ".str " + q(v)
    if isinstance(v, tuple) and all(isinstance(x, str) for x in v):
        return ".strs [%s]" % ", ".join(q(x) for x in v)
    if isinstance(v, tuple) and all(isinstance(x, int) for x in v):
        return ".ints [%s]" % ", ".join(map(str, v))
    return ".num (%s)" % rat(v)


TYPES = {"int8": "i8", "uint8": "u8", "int16": "i16", "uint16": "u16", "int32": "i32", "uint32": "u32", "float64": "f64"}
S = "surface_location_data"


def src(n):
    """an expression of write_record"""
    if isinstance(n, ast.Constant):
        return ".missing" if n.value is None else "(.const (%s))" % rat(n.value)
    if isinstance(n, ast.UnaryOp) and isinstance(n.op, ast.USub):
        return "(.neg %s)" % src(n.operand)
    if isinstance(n, ast.BinOp):
        op = {ast.Sub: "sub", ast.Mult: "mul", ast.Div: "div"}[type(n.op)]
        return "(.%s %s %s)" % (op, src(n.left), src(n.right))
    if isinstance(n, ast.Call) and getattr(n.func, "id", "") == "degrees":
        return "(.degrees %s)" % src(n.args[0])
    if isinstance(n, ast.Name):
        return "(.loc %s)" % q(n.id)
    t = ast.unparse(n)
    if t.startswith(S + "."):
        return "(.surf %s)" % q(t[len(S) + 1:])
    if t.startswith("closest_burst."):
        return "(.burst %s)" % q(t[len("closest_burst."):])
    if t == "self.cst.c":
        return "(.cst \"c\")"
    raise SystemExit("expression? " + t)


def names(tree, cls):
    for n in ast.walk(tree):
        if isinstance(n, ast.ClassDef) and n.name == cls:
            return {s.targets[0].id: s.value.value for s in n.body if isinstance(s, ast.Assign)}


def block(items):
    return "[\n  " + ",\n  ".join(items) + "]"


def gen(file, cls, en, dn, tag):
    path = R + file
    tree = ast.parse(open(path).read())
    vals, dims = names(tree, en), names(tree, dn)
    assert all(k == v for k, v in vals.items()) and all(k == v for k, v in dims.items())
    for n in tree.body:
        if isinstance(n, ast.ClassDef) and n.name == cls:
            break
    init = [f for f in n.body if getattr(f, "name", "") == "__init__"][0]
    wr = [f for f in n.body if getattr(f, "name", "") == "write_record"][0]
    calls = sorted((c for c in ast.walk(init) if isinstance(c, ast.Call) and getattr(c.func, "attr", "") == "define_variable"),
                   key=lambda c: c.lineno)
    defs = []
    for c in calls:
        assert len(c.args) == 3
        ds = ", ".join(q(dims[e.attr]) for e in c.args[2].elts)
        kw = ",\n     ".join("(%s, %s)" % (q(k.arg), att(k.value)) for k in c.keywords)
        defs.append("⟨%s, .%s, [%s],\n    [%s]⟩" % (q(vals[c.args[0].attr]), TYPES[c.args[1].attr], ds, kw))
    dcalls = sorted((c for c in ast.walk(init) if isinstance(c, ast.Call) and getattr(c.func, "attr", "") == "define_dimension"),
                    key=lambda c: c.lineno)
    dd = []
    for c in dcalls:
        t = ast.unparse(c.args[1])
        size = {"None": "none", "chd.n_samples_sar * cnf.zp_fact_range": "some samples", "cnf.n_looks_stack": "some looks"}[t]
        dd.append("(%s, %s)" % (q(dims[c.args[0].attr]), size))
    out.append("/-- The dimensions defined by `%s.__init__` (dedop/data/output/%s %d-%d). -/\ndef %sDims (samples looks : Nat) : "
               "List (String × Option Nat) :=\n  [%s]\n" % (cls, file, dcalls[0].lineno, dcalls[-1].end_lineno, tag, ", ".join(dd)))
    out.append("/-- The variables defined by `%s.__init__` (dedop/data/output/%s %d-%d). -/\ndef %sDefs : List VarDef := %s\n"
               % (cls, file, calls[0].lineno, calls[-1].end_lineno, tag, block(defs)))
    srcs = []
    for c in ast.walk(wr):
        if isinstance(c, ast.Call) and getattr(c.func, "attr", "") == "write_record":
            for k in c.keywords:
                srcs.append("(%s, %s)" % (q(k.arg), src(k.value)))
    out.append("/-- The expressions whose values `%s.write_record` passes on (dedop/data/output/%s %d-%d). -/\n"
               "def %sSources : List (String × Src) := %s\n" % (cls, file, wr.lineno, wr.end_lineno, tag, block(srcs)))


gen("l1b_writer.py", "L1BWriterExtended", "L1BVariables", "L1BDimensions", "extended")
gen("l1b_writer.py", "L1BWriter", "L1BVariables", "L1BDimensions", "s3")
gen("l1bs_writer.py", "L1BSWriter", "L1BSVariables", "L1BSDimensions", "l1bs")
head = """import Verif.Writer.Define
/-!
# The definitions of the variables of the three output files

Generated by tools/defs.py from the text of the writer classes.  Floating-point literals are the decimal numbers written in
the code.
-/
namespace Dedop.Writer

"""
root = os.path.join(os.path.dirname(os.path.abspath(__file__)), "..")
open(os.path.join(root, "lean/Verif/Writer/Defs.lean"), "w").write(head + "\n".join(out) + "\nend Dedop.Writer\n")
