import Verif.XmlRead
import Verif.UcisXsd
/-!
# `xml/xml_factory.py`
-/

namespace Verif
namespace Xml

/-- `XmlFactory.read`, `xml_factory.py:53-79`, on the parsed document: `validate_ucis_xml`
(`xml/__init__.py:25-72`) first, then the reader.  The exception `DocumentInvalid` of a failed
validation is `userError` here.  Opening, decompressing, parsing and closing the file are not modelled. -/
def factoryRead (flt : FloatText) (doc : Elem) : Except Err Database :=
  if Xsd.valid Xsd.ucisXsd doc then read flt doc else .error .userError

/-- `XmlFactory.write` (`xml_factory.py:82-94`) followed by `XmlFactory.read`. -/
def throughFile (env : Env) (db : Database) : Except Err Database := do
  let doc ← write env db
  factoryRead env.flt (reparse doc)

end Xml
end Verif
