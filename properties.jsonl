{"id": "C01", "title": "UnusedID returns a free identifier, the lowest one", "statement": "Resources.UnusedID returns a positive identifier that no asset and no object of the collection carries, and every smaller positive identifier is carried by some asset or object.", "quantifier": "every Resources value: any number of assets and objects, any identifiers, in any order", "why_tests_cant": "The answer depends on the whole multiset of identifiers; tests try a handful of lists without duplicates or zeros.", "anchors": ["core.go: Resources.UnusedID"]}
{"id": "C02", "title": "Lookup by identifier returns the first match and nothing else", "statement": "Resources.FindObject/FindAsset(id) succeed exactly when some object/asset in the collection has that identifier, and return the first one in document order.", "quantifier": "every collection and every uint32 identifier", "why_tests_cant": "All collections, including ones with repeated identifiers.", "anchors": ["core.go: Resources.FindObject", "core.go: Resources.FindAsset"]}
{"id": "C03", "title": "Path resolution of resources", "statement": "Model.FindResources/FindObject/FindAsset resolve the empty path and the model's own path (default path when unset) to the root resources, any other path to the child model stored under exactly that path, and fail otherwise; the root always wins over a child stored under the root path.", "quantifier": "every model, every path, every child map", "why_tests_cant": "Interaction of three path conventions over arbitrary maps.", "anchors": ["core.go: Model.FindResources", "core.go: Model.FindObject", "core.go: Model.FindAsset", "core.go: Model.PathOrDefault"]}
{"id": "C04", "title": "Walk order, completeness and early stop", "statement": "WalkObjects/WalkAssets call the visitor once per object/asset, children first in lexical path order then the root with an empty path; the first visitor error stops the walk and is the result; with no error every resource is visited.", "quantifier": "every model, every iteration order of the child map, every visitor (stateful or not)", "why_tests_cant": "Go map iteration order is random and visitors are arbitrary functions.", "anchors": ["core.go: Model.WalkObjects", "core.go: Model.WalkAssets", "validate.go: Model.sortedChilds"]}
{"id": "C05", "title": "MeshBuilder deduplicates vertices correctly", "statement": "With CalculateConnectivity on, over any sequence of AddVertex calls: every returned index is in range and designates a vertex in the same quantisation cell as the requested point; two calls return the same index exactly when their points fall in the same cell; stored vertices are in pairwise different cells and never change once added.", "quantifier": "every finite sequence of AddVertex calls, every quantisation function", "why_tests_cant": "It is an invariant over call histories of unbounded length.", "anchors": ["core.go: MeshBuilder.AddVertex", "math.go: vectorTree"]}
{"id": "C06", "title": "MeshBuilder without connectivity, and with the flag toggled at any time", "statement": "With CalculateConnectivity off each AddVertex appends and returns the new position. Under arbitrary toggling between calls, every returned index still designates a stored vertex in the requested cell and no stored vertex changes.", "quantifier": "every history of AddVertex calls and flag changes", "why_tests_cant": "Histories are unbounded and interleave two modes.", "anchors": ["core.go: MeshBuilder.AddVertex", "core.go: NewMeshBuilder"]}
{"id": "C07", "title": "Mesh.ValidateCoherency decides oriented manifoldness", "statement": "Mesh.ValidateCoherency returns nil exactly when the mesh has at least 3 vertices and 4 triangles and every directed edge of every triangle joins two different vertices, occurs exactly once in the mesh, and its reverse occurs exactly once.", "quantifier": "every mesh (any vertex and triangle lists, degenerate ones included, below 2^32 edges)", "why_tests_cant": "Equivalence with a mathematical predicate over all meshes.", "anchors": ["validate.go: Mesh.ValidateCoherency", "math.go: pairMatch"]}
{"id": "C08", "title": "Coherency does not depend on the presentation of the mesh", "statement": "Mesh.ValidateCoherency gives the same result after permuting the triangles, rotating the corners of any triangle, flipping the orientation of all triangles, or renaming vertices injectively.", "quantifier": "every mesh and every permutation/rotation/renaming", "why_tests_cant": "Symmetry group actions on all meshes.", "anchors": ["validate.go: Mesh.ValidateCoherency"]}
{"id": "C09", "title": "Model.ValidateCoherency is schedule independent", "statement": "For every interleaving of its goroutines, Model.ValidateCoherency returns nil exactly when every solid mesh of the root and child models is coherent, and otherwise a list with exactly one error per incoherent object, wrapped with that object's index and path.", "quantifier": "every model and every interleaving of the worker goroutines and order of the child map", "why_tests_cant": "Number of interleavings grows factorially; the race detector samples a few.", "anchors": ["validate.go: Model.ValidateCoherency", "validate.go: isSolidObject"]}
{"id": "C10", "title": "Mesh.BoundingBox is the tightest box", "statement": "For a mesh with at least one vertex, Mesh.BoundingBox contains every vertex and is contained in every box that does; each of its faces touches a vertex. With no vertices it is the zero box.", "quantifier": "every vertex list of finite coordinates", "why_tests_cant": "Universal statement over all vertex lists.", "anchors": ["core.go: Mesh.BoundingBox", "math.go: Box.extendPoint"]}
{"id": "C11", "title": "Model.BoundingBox is schedule independent", "statement": "Model.BoundingBox returns the same box for every order in which its goroutines acquire the lock.", "quantifier": "every model, every interleaving", "why_tests_cant": "Interleavings cannot be enumerated by tests.", "anchors": ["core.go: Model.BoundingBox", "math.go: Box.extend"]}
{"id": "C12", "title": "Model.BoundingBox encloses the placed geometry", "statement": "Model.BoundingBox contains the image, under the composed component and item transforms, of every vertex of every object reachable from the build.", "quantifier": "every model, every transform, every component tree", "why_tests_cant": "All affine transforms and trees.", "anchors": ["core.go: Model.BoundingBox", "core.go: Object.boundingBox", "math.go: Matrix.MulBox"]}
{"id": "C13", "title": "BoundingBox terminates on validated models", "statement": "If Model.Validate accepts a model then Model.BoundingBox terminates on it.", "quantifier": "every model accepted by Validate", "why_tests_cant": "Non-termination on cyclic component graphs of any length.", "anchors": ["core.go: Object.boundingBox", "validate.go: Object.validateComponents"]}
{"id": "C14", "title": "Accumulating errors loses and invents nothing", "statement": "errors.Append yields a list whose elements are exactly the non-nil errors appended so far, in order, with appended lists flattened one level; appending nil is neutral; the result is nil exactly when nothing non-nil was ever appended.", "quantifier": "every sequence of Append calls with arbitrary (nested) arguments", "why_tests_cant": "Histories are unbounded and errors nest.", "anchors": ["errors/list.go: Append", "errors/list.go: List"]}
{"id": "C15", "title": "Error wrapping keeps the target and reports the full path", "statement": "Wrap/WrapIndex/WrapPath never lose the wrapped error (errors.Is still finds it), the XPath of an error wrapped k times is the k names from the outermost to the innermost with their indices, and wrapping a list wraps each member.", "quantifier": "every error value and every sequence of wraps", "why_tests_cant": "Unbounded nesting.", "anchors": ["errors/errors.go: WrapIndex", "errors/errors.go: Wrap", "errors/errors.go: WrapPath", "errors/errors.go: Error"]}
{"id": "C16", "title": "Colours: exact language and round trip", "statement": "spec.ParseRGBA accepts exactly '#' followed by 6 or 8 hexadecimal digits, in either case, with the documented channel order and opaque default; ParseRGBA(FormatRGBA(c)) = c for every colour.", "quantifier": "every byte string; all 2^32 colours", "why_tests_cant": "The language is infinite and the colours too many to sample.", "anchors": ["spec/utils.go: ParseRGBA", "spec/utils.go: FormatRGBA"]}
{"id": "C17", "title": "Transforms: exact language and round trip", "statement": "spec.ParseMatrix accepts exactly twelve parseable numbers separated by white space, and puts them in the documented row-major cells with last column 0,0,0,1; parsing Matrix.String() succeeds for every matrix of finite numbers and yields each of the 12 entries rounded to 3 decimals; a second round trip changes nothing.", "quantifier": "every string, every matrix of finite float32", "why_tests_cant": "All float32 matrices.", "anchors": ["spec/utils.go: ParseMatrix", "math.go: Matrix.String"]}
{"id": "C18", "title": "uuid.New always yields a valid version 4 UUID", "statement": "For every outcome of the random source, uuid.New returns a 36-character lower-case UUID with version 4 and RFC 4122 variant that uuid.Validate accepts, and different values of the 122 free random bits give different UUIDs.", "quantifier": "every 16-byte random block", "why_tests_cant": "2^128 random blocks.", "anchors": ["uuid/uuid.go: New", "uuid/uuid.go: encodeHex"]}
{"id": "C19", "title": "uuid.Validate accepts exactly the UUID forms", "statement": "uuid.Validate accepts a string exactly when it is one of the documented forms: 36 characters with hyphens, the same inside braces, prefixed by urn:uuid: (case-insensitive), or 32 hexadecimal digits.", "quantifier": "every byte string", "why_tests_cant": "Infinite language.", "anchors": ["uuid/uuid.go: Validate"]}
{"id": "C20", "title": "Numbers survive encode/decode up to the written precision, stably", "statement": "Writing a finite number with the encoder's precision and reading it back gives a number whose distance to the original is at most that of the decimal written, and writing it again gives the same text: re-encoding a decoded file reproduces the same numerals.", "quantifier": "every finite float32 and every precision", "why_tests_cant": "2^32 floats times precisions; ties and halfway cases.", "anchors": ["encoder.go: xmlEncoder.FloatPresicion", "encoder.go: Encoder.writeVertices", "decoder.go: vertexDecoder.Start", "math.go: Matrix.String"]}
{"id": "C21", "title": "Enumerations and their XML spellings are inverse", "statement": "Units, ObjectType, materials tile style/filter/type, beam lattice clip mode/cap mode and slice mesh resolution: parsing the spelling of every supported value gives the value back, and only those spellings are accepted.", "quantifier": "every value and every string", "why_tests_cant": "The string side is infinite.", "anchors": ["core.go: newUnits", "core.go: newObjectType", "materials/materials.go: newTexture2DType", "materials/materials.go: newTextureFilter", "materials/materials.go: newTileStyle", "materials/materials.go: newBlendMethod", "beamlattice/beamlattice.go: newClipMode", "beamlattice/beamlattice.go: newCapMode", "slices/slices.go: newMeshResolution"]}
{"id": "C22", "title": "Text and attribute escaping is safe and reversible", "statement": "Escaping any string yields text without markup characters, and the XML reader decodes it to the original string, except that bytes and characters that XML forbids become U+FFFD.", "quantifier": "every byte string", "why_tests_cant": "All byte strings, including invalid UTF-8.", "anchors": ["internal/xml/printer.go: EscapeString", "internal/xml/xml.go: Decoder.text"]}
{"id": "C23", "title": "What the XML writer prints, the XML reader reads", "statement": "For every well-formed sequence of element and text tokens, reading the bytes printed by the XML writer yields the same sequence of tokens (names, namespaces, attributes in order, text), whatever the auto-close mode.", "quantifier": "every well-formed token tree with valid names", "why_tests_cant": "Unbounded trees, arbitrary text.", "anchors": ["internal/xml/printer.go: Printer", "internal/xml/xml.go: Decoder.RawToken"]}
{"id": "C24", "title": "Namespaces are lexically scoped and tags balance", "statement": "The XML reader resolves each prefix to the innermost enclosing xmlns declaration, restores the previous binding at the end tag, reports a mismatched or unclosed end tag as an error, and delivers matching start/end events for every document it accepts.", "quantifier": "every byte stream", "why_tests_cant": "Unbounded nesting and arbitrary shadowing.", "anchors": ["internal/xml/xml.go: Decoder.translate", "internal/xml/xml.go: Decoder.popElement"]}
{"id": "C25", "title": "Parsing does not depend on how the reader delivers bytes", "statement": "Tokens, attribute values and errors produced by the XML reader are the same for every way the underlying io.Reader splits the byte stream into chunks (including empty reads).", "quantifier": "every byte stream and every chunking", "why_tests_cant": "Exponentially many chunkings; buffer-boundary bugs hide at particular offsets.", "anchors": ["internal/xml/xml.go: bufioReader"]}
{"id": "C26", "title": "Decoding never panics", "statement": "UnmarshalModel returns (a model or an error) on every byte string, without panicking.", "quantifier": "every byte string", "why_tests_cant": "Fuzzing samples; the claim is for every document.", "anchors": ["read.go: decodeModelFile", "decoder.go", "spec/spec.go: NewAttrGroup"]}
{"id": "C27", "title": "Strict mode is the lenient mode cut at its first error", "statement": "For every document, strict decoding fails exactly when lenient decoding fails on a document with the same token stream, and when the document is well-formed XML the strict error is the first error of the lenient list.", "quantifier": "every token stream", "why_tests_cant": "All documents and error positions.", "anchors": ["read.go: decodeModelFile", "read.go: Decoder"]}
{"id": "C28", "title": "Core models survive encode then decode", "statement": "For every core model in the encoder's domain, decoding the root model part that Encode writes gives back the same model (units, language, thumbnail, extensions, metadata, base materials, objects with meshes and components, build items), with numbers rounded to the written precision.", "quantifier": "every core model value satisfying explicit well-formedness conditions", "why_tests_cant": "All models; field interactions.", "anchors": ["encoder.go: Encoder.writeModel", "decoder.go", "read.go: decodeModelFile"]}
{"id": "C29", "title": "Triangle property assignment survives encode/decode", "statement": "For every triangle and every object default, encoding then decoding keeps the effective property (pid, p1, p2, p3) of the triangle.", "quantifier": "every triangle and every object pid/pindex", "why_tests_cant": "uint32 combinations and the abbreviation rules.", "anchors": ["encoder.go: Encoder.writeTriangles", "decoder.go: triangleDecoder"]}
{"id": "C30", "title": "Unknown attributes are preserved", "statement": "Attributes in a namespace with no registered extension are kept, grouped by namespace in document order, by decode, and written back by encode on the same element.", "quantifier": "every attribute list on every element that accepts extension attributes", "why_tests_cant": "All attribute interleavings.", "anchors": ["spec/unknown.go: UnknownAttrs", "spec/spec.go: NewAttrGroup", "spec/spec.go: AnyAttr"]}
{"id": "C31", "title": "Unknown elements are preserved token by token", "statement": "An element from a namespace with no registered extension is recorded as exactly the token sequence of its subtree and written back as that sequence.", "quantifier": "every subtree", "why_tests_cant": "Unbounded subtrees, including ones that repeat the name of the element itself.", "anchors": ["spec/unknown.go: UnknownTokens", "spec/unknown.go: UnknownTokensDecoder", "read.go: decodeModelFile"]}
{"id": "C32", "title": "Every extension element of a model or mesh is written", "statement": "Encode writes every element stored in Model.Any and Mesh.Any, in order.", "quantifier": "every list of extension elements", "why_tests_cant": "Lists of any length.", "anchors": ["spec/spec.go: Any.Marshal3MF"]}
{"id": "C33", "title": "Materials resources survive encode then decode", "statement": "For every colour group, texture, texture coordinate group, composite group and multi-property group, encode then decode gives the same resource back, coordinates rounded to the written precision.", "quantifier": "every materials resource", "why_tests_cant": "Unbounded lists in each resource.", "anchors": ["materials/encoder.go", "materials/decoder.go"]}
{"id": "C34", "title": "Slice stacks survive encode then decode", "statement": "For every slice stack, encode then decode gives the same stack, with coordinates rounded to the written precision.", "quantifier": "every slice stack", "why_tests_cant": "Nested unbounded lists with defaulted segment properties.", "anchors": ["slices/encoder.go", "slices/decoder.go"]}
{"id": "C35", "title": "Beam lattices survive encode then decode", "statement": "For every beam lattice, encode then decode gives the same lattice, with numbers rounded and defaults (cap mode, radii) reconstructed.", "quantifier": "every beam lattice", "why_tests_cant": "Default elision depends on several fields per beam.", "anchors": ["beamlattice/encoder.go", "beamlattice/decoder.go"]}
{"id": "C36", "title": "Production attributes survive encode then decode and never lose a UUID", "statement": "Build, item, object and component UUID and path attributes decoded from a file are the ones written; SetMissingUUIDs leaves existing UUIDs alone and gives every build, item, object and component that lacks one a valid UUID.", "quantifier": "every model", "why_tests_cant": "All combinations of present/absent attributes over unbounded lists.", "anchors": ["production/encoder.go", "production/decoder.go", "production/production.go: SetMissingUUIDs"]}
{"id": "C37", "title": "Validate accepts only models whose references resolve", "statement": "If Model.Validate returns nil then every build item, component, object property and triangle property refers to an existing resource with an index in range, every triangle uses three different existing vertices, and resource identifiers are non-zero and unique within each model part.", "quantifier": "every model accepted by Validate", "why_tests_cant": "Soundness over all models.", "anchors": ["validate.go: Model.Validate", "validate.go: Resources.validate", "validate.go: Object.Validate"]}
{"id": "C38", "title": "Validate accepts every conforming core model", "statement": "A core model without extensions that satisfies the conditions of an independent specification of the core rules is accepted by Model.Validate.", "quantifier": "every model", "why_tests_cant": "Completeness over all models.", "anchors": ["validate.go: Model.Validate"]}
{"id": "C39", "title": "Validate rejects recursive component definitions", "statement": "If Model.Validate accepts a model, no object is reachable from itself through components.", "quantifier": "every component graph", "why_tests_cant": "Cycles of any length across model parts.", "anchors": ["validate.go: Object.validateComponents"]}
{"id": "C40", "title": "Relationship validation", "statement": "Validate reports, for each relationship list, exactly the relationships with a malformed part name, a missing target attachment, a repeated (path, type) pair, a print ticket of the wrong content type and every print ticket after the first.", "quantifier": "every relationship list and attachment list", "why_tests_cant": "Order-dependent detection over unbounded lists.", "anchors": ["validate.go: validateRelationship", "validate.go: findAttachment"]}
{"id": "C41", "title": "Metadata validation", "statement": "Validate reports exactly the metadata with an empty name, with a non-namespaced name outside the nine allowed names (case-insensitively), with a namespace that is not a declared extension, and each repetition of an earlier name; a namespaced metadata decoded from a valid file validates.", "quantifier": "every metadata list and extension list", "why_tests_cant": "All lists and names.", "anchors": ["validate.go: checkMetadadata", "validate.go: Metadata.validate", "decoder.go: metadataDecoder"]}
{"id": "C42", "title": "Materials validation rejects dangling indices", "statement": "If Validate accepts a model using the materials extension, every index of a composite or multi-property entry is within the referenced group, and every referenced group exists.", "quantifier": "every model", "why_tests_cant": "Boundary index == length for every group length.", "anchors": ["materials/validate.go"]}
{"id": "C43", "title": "Beam lattice validation rejects dangling references", "statement": "If Validate accepts a mesh with a beam lattice, every beam uses two different existing vertices and every beam set refers to existing beams.", "quantifier": "every beam lattice", "why_tests_cant": "All lattices.", "anchors": ["beamlattice/validate.go"]}
{"id": "C44", "title": "Slice validation", "statement": "If Validate accepts a slice stack, slice tops increase strictly from the bottom, and every polygon is a sequence of existing vertices with no repeated consecutive vertex.", "quantifier": "every slice stack", "why_tests_cant": "All stacks.", "anchors": ["slices/validate.go"]}
{"id": "C45", "title": "Binary STL import reads every facet", "statement": "Decoding a binary STL with n facets yields n triangles in order; each corner refers to a vertex in the same quantisation cell as the corner read; a truncated file is an error.", "quantifier": "every facet list and byte stream", "why_tests_cant": "Unbounded streams.", "anchors": ["importer/stl/binary.go"]}
{"id": "C46", "title": "ASCII STL import reads every facet", "statement": "Decoding an ASCII STL yields one triangle per three vertex lines in order and ignores other lines; malformed vertex lines are errors.", "quantifier": "every line sequence", "why_tests_cant": "Unbounded streams.", "anchors": ["importer/stl/ascii.go"]}
{"id": "C47", "title": "Importing a STL file picks the right format and honours cancellation", "statement": "Decoder.DecodeContext decodes every well-formed STL file of either format whatever its size, and returns the context error when the context is cancelled before the end.", "quantifier": "every STL file and every cancellation point", "why_tests_cant": "Boundary sizes and all cancellation points.", "anchors": ["importer/stl/decoder.go"]}
{"id": "C48", "title": "Child models are decoded independently of scheduling", "statement": "For every interleaving of the child decoding goroutines, decoding succeeds exactly when every child part decodes; on success each child's resources are those decoded from its own part.", "quantifier": "every set of child parts and every interleaving", "why_tests_cant": "Interleavings are not enumerable by tests.", "anchors": ["read.go: Decoder.processNonRootModels", "read.go: Decoder.readChildModel"]}
{"id": "C49", "title": "Cancelling a decode takes effect", "statement": "If the context is done before decoding starts, or becomes done while more than 1000 tokens remain, decoding returns the context error (or an earlier error) and not success.", "quantifier": "every document and every cancellation point", "why_tests_cant": "All documents and positions.", "anchors": ["read.go: decodeModelFile", "read.go: Decoder.DecodeContext"]}
{"id": "C50", "title": "Package writing registers each part and relationship once", "statement": "Encode creates exactly one part per attachment, child model and root model, and every relationship of the model is present once in the written package, with no duplicates.", "quantifier": "every model", "why_tests_cant": "All relationship lists and child maps in every iteration order.", "anchors": ["encoder.go: Encoder.Encode", "encoder.go: Encoder.writeChildModels", "opc.go: opcPart.AddRelationship"]}
{"id": "C51", "title": "Package reading collects attachments once", "statement": "Decoding a package records each attachment referenced from the package, root or child relationships exactly once (case-insensitive path), and each relationship whose target exists on the part that owns it.", "quantifier": "every package", "why_tests_cant": "All relationship graphs.", "anchors": ["read.go: Decoder.processOPC", "read.go: Decoder.extractCoreAttachments", "read.go: Decoder.addAttachment"]}
{"id": "C52", "title": "The name interning cache is transparent", "statement": "The XML reader's cache of names never changes the names reported: every name event equals the bytes read, for every history of previously seen names, including hash-slot collisions.", "quantifier": "every sequence of names", "why_tests_cant": "Collisions depend on the whole history.", "anchors": ["internal/xml/xml.go: Decoder.name"]}
{"id": "C53", "title": "Decode errors point at the offending element", "statement": "Every error reported by lenient decoding carries the path of element names and sibling indices from the root to the element whose attributes were rejected, in document order.", "quantifier": "every document", "why_tests_cant": "All nesting shapes.", "anchors": ["read.go: decodeModelFile", "errors/errors.go: WrapIndex"]}
{"id": "C54", "title": "Vertices are merged only if they are close", "statement": "Two points added to a MeshBuilder share a vertex only if each of their coordinates differs by at most a millionth of a unit, up to float32 rounding.", "quantifier": "every pair of points", "why_tests_cant": "All float values and rounding cases.", "anchors": ["math.go: newvec3IFromVec3", "core.go: MeshBuilder.AddVertex"]}
{"id": "C55", "title": "Packages survive encode then decode", "statement": "A model that Encode writes as a package and Decode reads comes back: the content of the root part and of every child part, the paths, the relationships of the package, the root part and the child parts, and the attachments; for every order in which the map of child models is visited and every schedule of the goroutines that decode child parts.", "quantifier": "every model with absolute paths whose relationships lead to attachments, every map order and every interleaving", "why_tests_cant": "Unbounded models; map orders and interleavings are not enumerable by tests.", "anchors": ["encoder.go: Encoder.Encode", "read.go: Decoder.Decode", "read.go: Decoder.processOPC"]}
{"id": "C56", "title": "Transforms compose", "statement": "Mul, Mul3D, Mul2D and Translate compute the products of linear algebra: exactly for small integers, within float32 rounding otherwise; the identity is neutral; mapping a point by a product is mapping it by one factor and then by the other.", "quantifier": "every matrix and point", "why_tests_cant": "Row/column order and rounding mistakes only show on particular matrices.", "anchors": ["math.go: Matrix.Mul", "math.go: Matrix.Mul3D", "math.go: Matrix.Mul2D", "math.go: Matrix.Translate"]}
{"id": "C57", "title": "Pair and vector dictionaries return the latest value", "statement": "After any history of calls, FindVector returns the value added last for the cell of the point unless it was removed since, and CheckMatch returns the value added last for the pair in either order.", "quantifier": "every history of calls", "why_tests_cant": "All interleavings of additions and removals.", "anchors": ["math.go: vectorTree.FindVector", "math.go: vectorTree.RemoveVector", "math.go: pairMatch.CheckMatch"]}
{"id": "C58", "title": "The text of an error identifies it", "statement": "The text of an error determines the part, the location (names and indices) and the reason; the text of a list of errors gives their number and the text of each of them; Less orders by text.", "quantifier": "every pair of errors", "why_tests_cant": "Injectivity is a statement about all pairs.", "anchors": ["errors/errors.go: Error.Error", "errors/errors.go: Error.XPath", "errors/list.go: listFormatFunc", "errors/list.go: List.Less"]}
{"id": "C59", "title": "Well-formed markup is read as XML 1.0 defines", "statement": "The reader accepts exactly the documents of an explicit grammar and reports for each of them what the grammar says; on well-formed XML documents this is the reading of XML 1.0: names, white space around attributes, quotes, references, line ends, processing instructions.", "quantifier": "every document", "why_tests_cant": "A grammar has unboundedly many sentences; tests cover only a few shapes.", "anchors": ["internal/xml/xml.go: Decoder.RawToken", "internal/xml/xml.go: Decoder.text", "internal/xml/xml.go: Decoder.attrval", "internal/xml/xml.go: Decoder.space"]}
{"id": "C60", "title": "A document is read as what it means", "statement": "The model read from a part is the one that its elements and attributes describe, with the default values of the schemas, and exactly the malformed attributes are reported, in the order of the document, each with the path of names and indices of the elements around it.", "quantifier": "every tree of elements, with missing, malformed and unknown attributes and with unknown elements anywhere", "why_tests_cant": "Documents are trees of any shape; mistakes in one attribute of one element, or an error lost in one place, are easily missed by tests.", "anchors": ["decoder.go: modelDecoder.Child", "decoder.go: objectDecoder.Start", "decoder.go: triangleDecoder.Start", "read.go: decodeModelFile", "materials/decoder.go: colorGroupDecoder.Start", "slices/decoder.go: sliceStackDecoder.Start", "beamlattice/decoder.go: beamLatticeDecoder.Start"]}
{"id": "C61", "title": "Numbers are read as the schema defines, correctly rounded", "statement": "A text of the schema type ST_Number is read as the float32 nearest to the rational it denotes, to even at a tie, with its sign; it is rejected exactly when that rational is too big for float32; other texts are rejected.", "quantifier": "every text", "why_tests_cant": "Ties, subnormals, overflow and long mantissas are not covered by examples.", "anchors": ["slices/decoder.go: polygonVertexDecoder.Start", "spec/utils.go: ParseMatrix"]}
{"id": "C62", "title": "A package is read as what its parts mean", "statement": "The model read from a package is the one described by its root part, by the parts that the relationships of the root part lead to, by the attachments and by the relationships; the faults of the root part are reported; a fault of another part makes every run fail.", "quantifier": "every package, every content of its parts and every interleaving of the goroutines", "why_tests_cant": "Number, content and order of the parts are unbounded, and the interleaving is not under the control of a test.", "anchors": ["read.go: Decoder.processOPC", "read.go: Decoder.processNonRootModels", "read.go: Decoder.processRootModel", "read.go: Decoder.DecodeContext"]}
{"id": "C63", "title": "Validate reports exactly the broken rules, each with its place", "statement": "The errors returned by Validate are exactly those of the rules that the model breaks (core, production, materials, slices, beam lattice), each with the element it is about, the indices on the way to it, and the path of its part; the model is accepted if and only if no rule is broken.", "quantifier": "every model with any number of parts, resources and declared extensions, and every set of registered extensions", "why_tests_cant": "Which rule is broken depends on combinations of references, counts and attributes across parts; tests check some dozens of models.", "anchors": ["validate.go: Model.Validate", "validate.go: Object.Validate", "validate.go: Resources.validate", "production/validate.go: validateObject", "materials/validate.go: validateMultiProps", "slices/validate.go: SliceStack.validateRefs", "beamlattice/validate.go: validateObject"]}
{"id": "C64", "title": "Saving and loading does not change the result of validation", "statement": "If the heights of slices, the radii of beams and the entries of transforms that decide whether an object is tilted are decimals of the written precision, Validate returns the same errors for the model read from the root part that was written as for the original; and a model that Validate accepts, written as a package and read again, is accepted.", "quantifier": "every model that can be written, every precision, every interleaving of the goroutines that read", "why_tests_cant": "Rounding of one number or the loss of one reference anywhere in the model can turn a valid model into an invalid one, or hide a fault.", "anchors": ["encoder.go: Encoder.Encode", "read.go: Decoder.Decode", "validate.go: Model.Validate"]}
{"id": "C65", "title": "Saving again does not change a model again", "statement": "A model that was written and read twice does not change any more, however often it is written and read; once is enough if no value becomes a default value by rounding.", "quantifier": "every model that can be written and every precision", "why_tests_cant": "Drift over many rounds is not seen by tests that save and load once.", "anchors": ["encoder.go: Encoder.writeModel", "beamlattice/encoder.go: marshalBeams", "slices/encoder.go: SliceStack.Marshal3MF", "read.go: decodeModelFile"]}
{"id": "C66", "title": "Validate returns unless it walks in circles", "statement": "Model.Validate returns exactly if, for no object with a slice stack, the walk from the build items through the components goes on forever before a tilted use of the object is found. In particular it returns if the slices extension is not in use, and if no object contains itself and no component refers to another part.", "quantifier": "every model and set of registered extensions", "why_tests_cant": "A cycle of components, or a component in another part, makes validation of a downloaded file overflow the stack, which in Go cannot be caught.", "anchors": ["slices/validate.go: validateBuildTransforms", "slices/validate.go: validateObjectTransforms", "slices/validate.go: validateObject", "validate.go: Model.Validate"]}
{"id": "C67", "title": "An imported STL file gives a valid model that survives saving", "statement": "If an accepted model gets the facets of an STL file by Decoder.Decode of package stl, the model is accepted again exactly if the facets have three different vertices, are four at least, and none has two corners in the same cell. Written and read again, the last object has one triangle for each facet, in the same order, with corners at most 1/10^precision + 1/10^6 + B/2^23 away from those in the file, if all coordinates are at most B <= 2147.", "quantifier": "every accepted model, every STL file that is read, every precision", "why_tests_cant": "The new identifier, the new object and the new item interact with all rules of the validator, for all parts and extensions; the tests only import into an empty model and never validate or save the result.", "anchors": ["importer/stl/decoder.go: Decoder.DecodeContext", "core.go: Resources.UnusedID", "validate.go: Model.Validate", "encoder.go: MarshalModel"]}
{"id": "C68", "title": "A file that was read can be saved and read again", "statement": "If UnmarshalModel reads a file, also one with faults in its attributes, MarshalModel writes the model it gives to a file that UnmarshalModel reads without any error, as the same model up to the precision of the numbers; and writing and reading once more gives a model that does not change any more.", "quantifier": "every file, every precision", "why_tests_cant": "What can be written depends on the names and prefixes in the model, which come from the file that was read; the tests only read what they wrote, or write what they made, and no test declares a prefix below the root element.", "anchors": ["read.go: UnmarshalModel", "encoder.go: MarshalModel", "internal/xml/printer.go: Printer.createAttrPrefix", "decoder.go: modelDecoder.Start"]}
{"id": "C69", "title": "A package that was read can be saved and read again", "statement": "If Decoder.Decode reads a package, also one with faults in the root part, Encoder.Encode writes the model it gives to a package that Decoder.Decode reads without any error, as a model with the same content up to the precision of the numbers: the same root part, child parts, relationships and attachments.", "quantifier": "every package, every precision, every order of the maps and every interleaving of the goroutines of both readings", "why_tests_cant": "The names of the parts, the relationships and the prefixes of the parts all come from the package that was read; the tests only decode mocked packages, and encode models made by hand.", "anchors": ["read.go: Decoder.DecodeContext", "read.go: Decoder.processOPC", "encoder.go: Encoder.Encode", "encoder.go: Encoder.writeChildModels"]}
{"id": "C70", "title": "Encode writes everything or returns an error", "statement": "If Encoder.Encode returns no error, the package is complete: no writer of a part returned an error, every part was created, every attachment was read to its end, and each part has all of its bytes. If it returns an error there was a cause. Whatever fails, at whichever call and after however many bytes, the parts written are the first ones, in order, all but the last are complete, and of the last there is a beginning. MarshalModel returns no error and everything that the tokens print.", "quantifier": "every model, every content of every part, and all writers and readers that obey the contracts of io.Writer and io.Reader, failing at any call", "why_tests_cant": "The printer ignores the result of every write and relies on the buffer to keep the error and on the callers to flush; one missing flush or check loses data silently, and only on full disks or broken connections.", "anchors": ["encoder.go: Encoder.Encode", "encoder.go: Encoder.writeModel", "encoder.go: Encoder.writeResources", "encoder.go: Encoder.writeAttachements", "encoder.go: Encoder.writeChildModels", "internal/xml/printer.go: Printer.WriteStart", "internal/xml/printer.go: Printer.WriteEnd", "encoder.go: MarshalModel"]}
{"id": "C71", "title": "A model can be saved again", "statement": "If Encoder.Encode has written a model, a second encoder writes the same package for the same model.", "quantifier": "every model, every content of its attachments, all writers", "why_tests_cant": "Attachments are streams, which Encode uses up; the tests encode every model once.", "anchors": ["encoder.go: Encoder.Encode", "encoder.go: Encoder.writeAttachements"]}
{"id": "C72", "title": "A decoder can be used again", "statement": "A decoder that has decoded a package into a model decodes the same package into another model as a new decoder would.", "quantifier": "every package and all models, any number of uses", "why_tests_cant": "The decoder keeps the list of child parts between calls; the tests use every decoder once.", "anchors": ["read.go: Decoder.DecodeContext", "read.go: Decoder.processOPC", "read.go: Decoder.extractCoreAttachments"]}
{"id": "C73", "title": "The memory for a binary STL file is bounded by its size", "statement": "When a binary STL file is imported, memory is allocated for at most as many triangles as there are facets in the file.", "quantifier": "every stream of bytes", "why_tests_cant": "The allocation takes the number in the header, which the sender of the file chooses; tests use honest headers.", "anchors": ["importer/stl/binary.go: binaryDecoder.decode"]}
{"id": "C74", "title": "A decode without error has read everything", "statement": "If Decode returns no error, then every part of the package that it refers to was read to its end without an error of the source, and every model part is a well-formed document with one model as its root element.", "quantifier": "every package, every schedule of the goroutines, every moment of cancellation, and every place where a source fails", "why_tests_cant": "Sources fail at any byte, and an error that is dropped in one place gives a model that looks complete.", "anchors": ["read.go: Decoder.DecodeContext", "read.go: Decoder.processRootModel", "read.go: Decoder.readChildModel", "read.go: Decoder.addAttachment", "read.go: copyFile"]}
{"id": "C75", "title": "Decoding adds to the model that is given", "statement": "Decode and UnmarshalModel write into a model that the caller gives and that need not be empty. Nothing that was in it is removed or changed: metadata, items, objects, assets, elements and declarations of extensions, attachments and relationships are extended at their ends, whatever the file contains, however the goroutines interleave, and also if the result is an error. What is added is what the file says.", "quantifier": "every model, every package or part (every token sequence), both modes, every interleaving and time of cancellation, every result", "why_tests_cant": "The tests decode into empty models only; that nothing is lost for every input, including those that end with an error in the middle of an element, and what the content of the old model does to the new one, is not exercised.", "anchors": ["read.go: decodeModelFile", "read.go: Decoder.DecodeContext", "read.go: Decoder.processOPC", "read.go: Decoder.addAttachment", "decoder.go: modelDecoder.Start"]}
{"id": "C76", "title": "Saving leaves the memory of the model alone", "statement": "Encode does not change the model: every slice of relationships of the model, and every other slice that shares an array with it, has the same elements afterwards, and each part is written with the relationships of its model and those that its content adds, however the slices of the model share memory.", "quantifier": "every model, every layout of its slices in memory (shared arrays, any capacity), every order of the child models, every growth of new arrays", "why_tests_cant": "The tests never encode child models whose relationships are slices of one array with spare capacity; the space of layouts is unbounded.", "anchors": ["encoder.go: Encoder.Encode", "encoder.go: Encoder.writeChildModels", "encoder.go: xmlEncoder.AddRelationship"]}
{"id": "C77", "title": "Reading a package closes every part that it opens", "statement": "Whenever Decode returns, with or without an error, whether cancelled or not, every part of the package that it opened (attachments that are copied, child models decoded in goroutines, the root model) has been closed exactly as often as it was opened, never before it was opened, and at most max(1, number of child parts) parts are open at the same time. An attachment that can be read is opened only once, however many relationships refer to it.", "quantifier": "for every package, every model passed to Decode, every interleaving of the goroutines, every moment of cancellation and every kind of failure", "why_tests_cant": "A leaked reader does not change what is decoded; a test would have to count the open readers for every error path and every interleaving.", "anchors": ["read.go: Decoder.DecodeContext", "read.go: Decoder.processRootModel", "read.go: Decoder.processNonRootModels", "read.go: Decoder.processOPC", "read.go: Decoder.addAttachment", "read.go: Decoder.readChildModel", "read.go: copyFile"]}
{"id": "C78", "title": "What is saved reaches the package writer in time", "statement": "The library that writes packages takes the content and the relationships of a part only until the next part is created or the package is closed; what comes later is lost without an error. In every run of Encoder.Encode, whatever fails, each call of Write and AddRelationship of a part comes after that part was created and before the next one is, no call comes after Close, and Close is called, once and last, exactly if nothing has failed before. Hence the file has every part that was created, in order, with everything that was written to it and every relationship that it was given, and every relationship of the package.", "quantifier": "For every model, precision, attachments' streams, order of the map of child models, and every behaviour of the writers of the parts, of Create and of Close.", "why_tests_cant": "A relationship that is added too late is lost silently and only for models with child parts, attachments or textures; the order of calls in every error path cannot be enumerated by tests.", "anchors": ["encoder.go: Encoder.Encode", "encoder.go: Encoder.writeChildModels", "encoder.go: Encoder.writeAttachements", "encoder.go: Encoder.modelToken", "opc.go: opcWriter.Create", "opc.go: opcPart.AddRelationship", "opc.go: opcWriter.AddRelationship"]}
{"id": "C79", "title": "The memory of the XML reader follows the nesting, not the length", "statement": "Decoding a part keeps records of the open elements and of the prefixes that were redefined. The records are used again for later elements without any trace of what they held before: the events and the error are the same as with fresh records. However long a document is, the number of records ever allocated is at most what its elements need at the same time, so a document nested at most n deep with at most k attributes per element needs at most n*(k+1).", "quantifier": "Every sequence of bytes, well formed or not, and every error at its end", "why_tests_cant": "A recycled record that keeps a stale field, or that is in both linked lists at once, only shows for particular sequences of open and closed elements and redefined prefixes; a leak of one record per element passes every test with small files.", "anchors": ["internal/xml/xml.go: Decoder.push", "internal/xml/xml.go: Decoder.pop", "internal/xml/xml.go: Decoder.popElement", "internal/xml/xml.go: Decoder.pushNs", "internal/xml/xml.go: Decoder.RawToken"]}
{"id": "C80", "title": "The attributes of a start tag do not get in each other's way", "statement": "While the handler of a start tag runs, it reads exactly the attributes of this tag, each with its own value, no matter how many attributes the tag has, how long the values are, and which tags were read before. Reading a tag never panics because of the number of its attributes. The memory that is kept for attributes is at most twice what the tag with the most attributes needs (or ten). The values are not guaranteed after the handler returned.", "quantifier": "Every sequence of start tags, with every number of attributes of every length, every translation of the names and every growth of the buffers", "why_tests_cant": "The attributes live in arrays that are shared by all tags and that are replaced while a tag is read; aliasing between two of them depends on the lengths of earlier values and on tags with more than ten, twenty, forty attributes.", "anchors": ["internal/xml/xml.go: Decoder.RawToken", "internal/xml/xml.go: NewDecoder", "internal/xml/xml.go: Decoder.handleStartElement"]}
{"id": "C81", "title": "Extensions can be registered and looked up from any goroutine", "statement": "Register, Load and LoadValidator may be called at the same time by any number of goroutines. There is no race on the registry, the calls never block each other for good, every call takes effect at one point between its beginning and its return, and Load returns what was registered last before that point. Register panics when a name space is registered twice or when the extension is nil.", "quantifier": "Every number of calls with every name spaces and extensions, and every interleaving of their steps", "why_tests_cant": "Races on a map depend on the interleaving of goroutines, and a test only sees a few of them.", "anchors": ["spec/spec.go: Register", "spec/spec.go: Load", "spec/spec.go: LoadValidator"]}
{"id": "C82", "title": "Errors are wrapped without changing other errors", "statement": "Wrap, WrapIndex, WrapPath and Append work in place: they extend the target of an *Error, overwrite the members of a *List and extend the *List they are given. The error they return must nevertheless be the one of a function that returns a new error, and no other error that exists in memory may change.", "quantifier": "all expressions of calls of Wrap, WrapIndex, WrapPath, Append and of the assignment of paths in validateRelationship, and all contents of the memory before", "why_tests_cant": "The tests compare the result of single calls; that two errors share memory shows only when one of them is looked at after the other was wrapped, for which one would have to try all sequences of calls.", "anchors": ["errors/errors.go: WrapIndex", "errors/errors.go: WrapPath", "errors/list.go: Append", "validate.go: validateRelationship"]}
{"id": "C83", "title": "The validators of private extensions are heard", "statement": "If a Spec implements ValidateSpec, Model.Validate calls it, with the model, the path of the part and the model itself, every asset and every object of every part, and aggregates all the errors it returns, each with the place of its element; nothing is reported besides that and the rules of the core specification.", "quantifier": "all models, all registered extensions with arbitrary validators, all errors they return (single, wrapped, lists, nil and nil lists)", "why_tests_cant": "The tests register one fake extension with one canned answer; which elements an extension is asked about, how often and with which path matters only for models with several parts and extensions.", "anchors": ["spec/spec.go: ValidateSpec", "spec/spec.go: LoadValidator", "validate.go: Model.Validate", "validate.go: Resources.validate", "validate.go: Object.Validate", "errors/list.go: Append"]}
{"id": "C84", "title": "Files are opened, saved and closed as they should be", "statement": "OpenReader changes no file and leaves none open if it returns an error; what is then decoded is the content that the file had when it was opened, even if it is renamed, removed or appended to. After Close the file is closed and Decode returns an error without touching the model. If CreateWriter and Encode return no error, the file holds exactly the bytes of the package, whatever it held before, no other file has changed, and it can be read back; this also holds if the model was read from the same file. A save that fails leaves the old file as it was.", "quantifier": "every disk, every failure of the operating system, every model and every package library that reads within the given size", "why_tests_cant": "Tests use one file on a healthy disk; they cannot fail Stat, fill the disk or change the file between two calls.", "anchors": ["read.go: OpenReader", "read.go: ReadCloser.Close", "encoder.go: CreateWriter", "encoder.go: WriteCloser.Close", "read.go: copyFile", "opc.go: opcReader.Open"]}
{"id": "C85", "title": "Documents are read in the encoding that they are in", "statement": "A part in UTF-8 is read the same with and without a byte order mark. A part in UTF-16, which 3MF allows as well, is read as the model that it describes. A part in any other encoding, or with bytes that are not UTF-8, is rejected.", "quantifier": "every document, every model that is given, both modes", "why_tests_cant": "All test documents are ASCII without a byte order mark.", "anchors": ["internal/xml/xml.go: Decoder.RawToken", "internal/xml/xml.go: Decoder.text", "read.go: decodeModelFile", "read.go: UnmarshalModel"]}
{"id": "C86", "title": "Saving a model is reproducible", "statement": "Saving the same model again gives the same package, and fails if and only if it failed before, although the map of child models is visited in an order that changes from run to run.", "quantifier": "every model, every two pairs of orders in which the two loops over the child models visit the map, every library that accepts a part by its name and type and by the names it clashes with", "why_tests_cant": "Map order is random. The test that saves two children reads the package back and compares models, in the order that the run happened to use; packages of two orders are never compared.", "anchors": ["encoder.go: Encoder.Encode", "encoder.go: Encoder.writeChildModels"]}
{"id": "C87", "title": "The same model gives the same report", "statement": "Validate returns the same errors in the same order every time, although the child models are in a map. The find methods give the same answers, BoundingBox has the same possible results and ValidateCoherency returns the same errors up to their order.", "quantifier": "every model, every two orders in which the map of child models is visited", "why_tests_cant": "Map order is random; a test that passes once may fail another time, and tests compare one run with a fixed list.", "anchors": ["validate.go: Model.sortedChilds", "validate.go: Model.Validate", "validate.go: Model.ValidateCoherency", "core.go: Model.FindResources", "core.go: Model.BoundingBox"]}
{"id": "C88", "title": "A number that is no value of an enumeration is not taken for one", "statement": "The fields that are enumerations can hold any number. The named constants have different numbers, zero is the value that a missing attribute means, and after saving and loading a field either has its value again or the reader reports an error.", "quantifier": "all nine enumerations, every number", "why_tests_cant": "Tests only use the named constants.", "anchors": ["core.go: Units.String", "core.go: ObjectType.String", "slices/slices.go: MeshResolution.String", "beamlattice/beamlattice.go: ClipMode.String", "beamlattice/beamlattice.go: CapMode.String", "materials/materials.go: Texture2DType.String", "materials/materials.go: TileStyle.String", "materials/materials.go: TextureFilter.String", "materials/materials.go: BlendMethod.String"]}
{"id": "C89", "title": "The time for a bounding box or a validation follows the size of the model", "statement": "BoundingBox and the validator of slices make a number of calls that is bounded by a polynomial in the number of objects, components and items of the model.", "quantifier": "every model that Validate accepts", "why_tests_cant": "A model of a few objects that refer to each other twice behaves well in a test; the number of calls doubles with each level.", "anchors": ["core.go: Model.BoundingBox", "core.go: Object.boundingBox", "slices/validate.go: validateObjectTransforms", "slices/validate.go: validateBuildTransforms"]}
{"id": "C90", "title": "The XML reader does not amplify", "statement": "A document cannot be made to expand while it is read. For every sequence of bytes, and however the underlying reader ends, the local names of elements and attributes, the values of the attributes and the text that the reader hands to its callbacks are together no longer than the document, even if one more byte is counted for each element and each attribute. With the names of the end tags, including those added for an empty element tag, they are at most twice as long. A text or value is never longer than the bytes it is read from: a reference to a character or entity takes at least as many bytes as it stands for, and a document cannot declare entities.", "quantifier": "All byte sequences, well-formed or not, and all ways in which the reader ends.", "why_tests_cant": "A 3MF package comes from strangers. Expansion of entities is the usual way to make an XML reader exhaust the memory with a small file.", "anchors": ["internal/xml/xml.go: Decoder.RawToken", "internal/xml/xml.go: Decoder.text", "internal/xml/xml.go: Decoder.attrval"]}
{"id": "C91", "title": "The core content of a file does not depend on the registered extensions", "statement": "Which extensions are registered decides what becomes of their elements and attributes, not what becomes of the core content: the objects with their meshes, components and metadata, the base materials, the items of the build, the units, the language, the metadata and the declared name spaces. For every document with one model element, its root, in which no core element is inside an element of another name space, two decodes under different sets of registered extensions that both return leave models that differ only in AnyAttr, Any and the assets of extensions. The claim without this restriction does not hold: if an extension is registered, an element of its name space that it does not know is skipped but its content is read as if it were not enclosed, so that a core object inside it is read; if the extension is not registered the same element is kept as unknown tokens and the object is not read.", "quantifier": "All documents (also malformed ones), all pairs of sets of registered extensions, root parts and other parts, all models decoded into, lenient mode, with or without cancellation.", "why_tests_cant": "It compares two runs with different global state. A test would need every combination of registered extensions on every document.", "anchors": ["read.go: decodeModelFile", "decoder.go: modelDecoder.Child", "decoder.go: resourceDecoder.Child", "decoder.go: meshDecoder.Child", "spec/spec.go: NewElementDecoder", "spec/spec.go: NewAttrGroup"]}
{"id": "C92", "title": "A program that does not know an extension passes its content on", "statement": "A model is saved by a program in which some extensions are registered. Programs in which fewer of them are registered, possibly none, read the file and save what they read, one after the other. A program with all of the extensions then reads exactly the model that it reads from the first file: colour groups, textures, composites, multi-properties, slice stacks, beam lattices and the attributes of the production and slice extensions survive as unknown tokens and attributes, with their order, identifiers and numbers. It holds for the bytes of MarshalModel and for the root part that Encode writes. For files of other programs it does not hold: of several elements of extensions in a mesh only the first one is saved.", "quantifier": "All models whose texts and names can be written and in which no rounded value becomes a default value (Writable, SettledModel), all sets of registered extensions, all subsets of it for each program in between, any number of them, all precisions, strict and lenient mode.", "why_tests_cant": "The unknown elements are kept by one part of the decoder and written by one part of the encoder, while the extensions have their own; the claim says that all these parts agree, for every model.", "anchors": ["spec/unknown.go: UnknownTokens.Marshal3MF", "spec/unknown.go: UnknownAttrs.Marshal3MF", "spec/spec.go: NewElementDecoder", "spec/spec.go: NewAttrGroup", "core.go: UnknownAsset", "encoder.go: Encoder.writeResources", "encoder.go: Encoder.writeObject"]}
{"id": "C93", "title": "A coordinate that is not a number spoils only itself", "statement": "A vertex or a transformed item with an infinite or NaN coordinate does not take other vertices or items out of the bounding box: the box covers every vertex with finite coordinates, for every order of the vertices and every schedule.", "quantifier": "every mesh and every model, every value of float32 including the infinities and NaN", "why_tests_cant": "Tests use ordinary numbers; NaN is read from a file without error, and arises by overflow from finite transforms.", "anchors": ["math.go: Box.extendPoint", "math.go: Box.extend", "math.go: min", "math.go: max", "math.go: Matrix.Mul3D", "core.go: Mesh.BoundingBox", "core.go: Model.BoundingBox"]}
{"id": "C94", "title": "The presentation of a document does not matter", "statement": "Two documents that differ only in the order of the attributes of elements, in texts, comments and processing instructions between elements, in elements without a meaning, and in the order of elements with different names are read as the same model, with the same errors up to their order.", "quantifier": "all pairs of documents, root and child parts, with elements of all extensions", "why_tests_cant": "The test documents are all written in one style; other programs order attributes and elements in other ways.", "anchors": ["decoder.go: modelDecoder.Child", "decoder.go: objectDecoder.Start", "decoder.go: meshDecoder.Child", "slices/decoder.go: sliceStackDecoder.Start", "beamlattice/decoder.go: beamLatticeDecoder.Start", "read.go: decodeModelFile"]}
{"id": "C95", "title": "The choice of name-space prefixes does not matter", "statement": "Two documents that differ only in the name-space prefixes, in the declarations, in requiredextensions, in the names of metadata and in the names of elements and attributes, are read with the same errors as models that differ only in the prefixes of their extensions; and Validate answers the same.", "quantifier": "all documents and all injective renamings of prefixes", "why_tests_cant": "The tests use the prefixes of the specification (p, s, m, b); other programs choose others or declare them elsewhere.", "anchors": ["decoder.go: modelDecoder.Start", "decoder.go: metadataDecoder.Start", "decoder.go: modelDecoder.noCoreAttribute", "validate.go: Metadata.validate", "validate.go: Object.Validate"]}
{"id": "C96", "title": "Identifiers of resources are names, local to a part", "statement": "If the objects and assets of a model get other identifiers (different ones stay different, 0 stays 0), and all the references to them are changed likewise, then Validate returns exactly the same errors and BoundingBox the same box. The identifiers of each part can be changed on their own.", "quantifier": "all models, all injective changes of identifiers, all registered extensions", "why_tests_cant": "The tests use small consecutive numbers; a validator that confuses identifiers with indices, or looks a reference up in the wrong part, can pass them.", "anchors": ["core.go: Model.FindObject", "core.go: Object.boundingBox", "validate.go: Object.Validate", "validate.go: Resources.validate", "slices/validate.go: validateObjectTransforms"]}
{"id": "C97", "title": "Additions do not disturb what is there", "statement": "If assets, objects and items are appended to a model that Validate accepts, the objects and assets with identifiers that are not in use (such as UnusedID returns), then everything that Validate reports afterwards is about the additions, everything that could be looked up before is found unchanged, the additions are found, and the bounding box changes only by the items.", "quantifier": "all accepted models, all additions", "why_tests_cant": "The tests build each model in one go; programs build them step by step.", "anchors": ["core.go: Resources.UnusedID", "core.go: Resources.FindObject", "core.go: Object.boundingBox", "validate.go: Resources.validate", "slices/validate.go: validateObjectTransforms"]}
{"id": "C98", "title": "The order of resources and items does not matter", "statement": "If the assets and objects of each part and the items of the build of a model are put in another order, then Validate accepts the model exactly if it did before, every lookup by identifier finds the same, the box of every object is the same and the box of the model can come out as the same boxes. Exception: beam lattices that refer to another mesh, which must stand before the object, as the beam lattice standard demands.", "quantifier": "all models whose assets have identifiers, all permutations", "why_tests_cant": "The tests check each model in one order; files of other producers come in any.", "anchors": ["validate.go: Resources.validate", "validate.go: Build.validate", "core.go: Resources.FindObject", "core.go: Model.BoundingBox", "beamlattice/validate.go: validateRefMesh", "slices/validate.go: validateBuildTransforms"]}
{"id": "C99", "title": "What nothing refers to can be removed", "statement": "If objects, assets and items are removed from the parts of a valid model and nothing that is left refers to what was removed, then Validate still accepts the model, and every lookup that still finds something finds what it found before. In particular items can always be removed, and so can an object or an asset to which nothing refers.", "quantifier": "all valid models whose assets have identifiers, all removals", "why_tests_cant": "Programs drop items and unused resources from models; the tests never validate a model twice.", "anchors": ["validate.go: Resources.validate", "validate.go: Build.validate", "core.go: Resources.FindObject", "beamlattice/validate.go: validateRefMesh", "slices/validate.go: validateBuildTransforms"]}
{"id": "C100", "title": "A file that is cut short is not taken for a complete one", "statement": "If the bytes of a model part or of an STL file end before the file is complete, reading what is left is an error, unless only text after the root element is missing, in which case the result is that of the complete file.", "quantifier": "all documents with one model element, all binary STL files, all places where they are cut", "why_tests_cant": "Interrupted downloads and copies produce such files, and a part of a model that looks like a whole one is worse than an error; the tests cut files at a handful of places only.", "anchors": ["internal/xml/xml.go: Decoder.RawToken", "read.go: decodeModelFile", "importer/stl/binary.go", "importer/stl/ascii.go"]}
{"id": "C101", "title": "The presentation of an STL file does not matter", "statement": "Two STL files whose facets have the same corners, in the same order, are imported as the same model: the format, the header or the name, the normals, the attributes, lines without a vertex and bytes after the last facet do not matter.", "quantifier": "all pairs of STL files, both formats, all models to which they are imported", "why_tests_cant": "Programs write the two formats with all kinds of headers, names and normals; the tests import one triangle in each format.", "anchors": ["importer/stl/decoder.go: Decoder.DecodeContext", "importer/stl/decoder.go: Decoder.isASCII", "importer/stl/binary.go", "importer/stl/ascii.go"]}
{"id": "C102", "title": "What is written is UTF-8 and consists of XML characters", "statement": "Whatever bytes the texts and values of a model consist of, every model part that is written is valid UTF-8 and contains only characters that XML 1.0 allows.", "quantifier": "all models and child models, all precisions", "why_tests_cant": "The header promises UTF-8, and a document with a forbidden byte sequence or character is read by no parser; the tests write ASCII only.", "anchors": ["internal/xml/printer.go: Printer.WriteStart", "internal/xml/printer.go: Printer.EscapeString", "internal/xml/printer.go: Printer.createAttrPrefix", "encoder.go: Encoder.writeModel", "encoder.go: Encoder.writeTriangles"]}
{"id": "C103", "title": "No tag that is written has the same attribute twice", "statement": "In no start tag that the encoder writes do two attributes have the same name.", "quantifier": "all models and child models, all precisions, all tags", "why_tests_cant": "A document with a repeated attribute is not well formed and other programs refuse it, but the reader of this repository does not notice; the tests compare a few documents.", "anchors": ["encoder.go: Encoder.modelToken", "encoder.go: Encoder.writeObject", "encoder.go: Encoder.writeTriangles", "spec/spec.go: AnyAttr.Marshal3MF"]}
{"id": "C104", "title": "What is written is a well-formed document", "statement": "The bytes written for a model and for a child model are a well-formed document of XML 1.0: allowed characters only, the grammar, matching tags, one root element, no attribute twice; every prefix is declared; and its tags and texts are those that the reader of this repository finds in it.", "quantifier": "all models and child models, all precisions", "why_tests_cant": "The printer of internal/xml is hand written and checks nothing; the tests read with the reader of the same package, which accepts more than XML. Other programs refuse a document that is not well formed.", "anchors": ["encoder.go: MarshalModel", "encoder.go: Encoder.writeModel", "encoder.go: Encoder.writeChildModel", "internal/xml/printer.go: Printer.WriteStart"]}
{"id": "C105", "title": "What is written follows the schema of the core specification", "statement": "The elements of the parts written for a model and for a child model come in the order of the XML schema of the core specification (metadata, resources with property groups before objects, build, then elements of other name spaces; vertices before triangles; a metadata group before the mesh or the components), and each has the required attributes of the schema and no others without name space.", "quantifier": "all models and child models, all precisions", "why_tests_cant": "The order and the names are spread over hand written functions; the decoder of this repository accepts any order and ignores unknown attributes, so that its tests cannot see a mistake that makes other programs refuse the file.", "anchors": ["encoder.go: MarshalModel", "encoder.go: Encoder.modelToken", "encoder.go: Encoder.writeModel", "encoder.go: Encoder.writeChildModel", "encoder.go: Encoder.writeResources", "encoder.go: Encoder.writeObject", "encoder.go: Encoder.writeMesh", "encoder.go: Encoder.writeBuild"]}
{"id": "C106", "title": "What is written follows the schemas of the extensions", "statement": "The elements that are written for resources of the materials extension, for slice stacks and for beam lattices have the children, in their order, and the attributes of the schemas of these extensions: the required attributes are there, and there are no others without name space.", "quantifier": "all models and child models, all precisions, all programs that register the extensions", "why_tests_cant": "The decoders of this repository accept any order, give missing attributes default values and ignore unknown attributes; a test that reads back what was written does not see that an attribute has been left out if its value is the default of the decoder.", "anchors": ["encoder.go: MarshalModel", "materials/encoder.go: ColorGroup.Marshal3MF", "materials/encoder.go: Texture2D.Marshal3MF", "materials/encoder.go: MultiProperties.Marshal3MF", "slices/encoder.go: SliceStack.Marshal3MF", "beamlattice/encoder.go: BeamLattice.Marshal3MF"]}
