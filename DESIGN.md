# Formal model of HPInc/go3mf in Lean 4

## 1. What is proved about what

The theorems are about a Lean model of the Go code in `/repo`, written by reading the source.  The code
itself is never run.  Every definition of the model cites the file and lines it models, and says where it
simplifies.

### Trusted base

* Lean 4.33.0's kernel.
* The axioms `propext`, `Classical.choice`, `Quot.sound` (at most; no others are used).
* The reading of the Go code into the model (the citations are there so that it can be re-read).
* The Go language semantics and the facts about libraries listed in section 4.

### Layout

* `Verif/Model/**` – the model: definitions that compute.
* `Verif/Spec/**` – small independent specifications used in the statements.
* `Verif/Lemmas/**` – auxiliary lemmas.
* `Verif/Props/**` – the property theorems, named `Cnn_…`, each with an `example` that its hypotheses can be met.
* `Verif/Tests/**` – the unit tests of the repository, restated as closed theorems about the model and checked by the kernel
  (same inputs, same expected values). They compare the model with what the authors of the code expect of it, and are the only
  check of the model against data that was not written for the model.

| module of the model | code |
|---|---|
| `Base`, `Num` | byte strings; float32 as sign and magnitude with correctly rounded operations, `strconv` for integers and floats |
| `Types`, `Core`, `Enums`, `EnumNums` | the data types of core.go and the extensions, searching and walking, `MeshBuilder`, enumerations |
| `Errors` | errors/errors.go |
| `Text` | internal formats: colours, matrices, UUIDs, decimal numbers |
| `Coherency`, `Par`, `CoherencyPar`, `Box`, `Cost` | mesh coherency, goroutines under a mutex, bounding boxes and transforms, numbers of calls |
| `Validate` | validate.go and the validators of the extensions |
| `Utf8`, `Xml`, `Bufio`, `Buffer`, `Printer` | internal/xml: reader, byte source and name cache, aliasing of the buffer, printer |
| `Attrs`, `Decode` | decoder.go, read.go:64-159 and the decoders of the extensions |
| `Encode` | encoder.go and the encoders of the extensions |
| `Production` | `SetMissingUUIDs` |
| `Quant`, `Stl` | quantisation of vertices, importer/stl |
| `Matrix` | matrix products, translations, `vectorTree` |
| `ErrText` | messages of errors, formatting of error lists |
| `Package`, `Children` | packages over an abstract OPC library; the goroutines that decode child models |

When the code violates the property as a user would state it, the file contains a theorem `Cnn_…_false` (a
concrete counterexample in the model) and a theorem `Cnn_…_partial` proving the property under an explicit
restriction.  Section 5 lists the former.

## 2. Modelling conventions

* Go `string`/`[]byte` is `List UInt8` (`Str`); `uint32` is `UInt32`; lengths are `Nat`.
* `error` is an inductive type; `nil` is `none`.  Validators return the list of their errors.
* A method that mutates its receiver returns the new value.
* A Go map is an association list; where its order matters it is universally quantified (any permutation).
* Goroutines are interleaved atomic steps; theorems quantify over every schedule.  The load and the store of a
  shared variable are separate steps.
* Interfaces with a registry (`spec.Register`) are a closed inductive type of the built-in implementations, with a
  parameter `Env` telling which are registered.  Specifications registered by a user of the package are not modelled.
* Panics are an explicit outcome (`none`) of the decoder, of the package reader and of the goroutines.
* The decoder is a machine over tokens: a stack of decoder kinds, and one register per kind.
* The encoder is the list of its calls of the printer; the printer turns the list into bytes.
* The text of unknown elements aliases the buffer of the reader: the decoder has a parameter `mem` that says what such a
  text reads as later; theorems quantify over it, and `Model/Buffer` computes it.
* Recursion that may not terminate has fuel; theorems about it quantify over the fuel.

## 3. Plan per property

| id | modelled | proof |
|----|----------|-------|
| C01 | `Resources.UnusedID` with sort and scan | sorted-list invariant; counterexample with duplicate ids |
| C02 | `FindObject`, `FindAsset` | list induction |
| C03 | `FindResources` | case analysis |
| C04 | `WalkObjects`, `WalkAssets` with a stateful visitor | induction; sorting is canonical for any map order |
| C05, C06 | `MeshBuilder` as a state machine | invariant over histories |
| C07, C08 | `Mesh.ValidateCoherency` loops over maps and counters | refinement to counts of directed edges |
| C09, C11 | goroutines as interleavings, accumulation under a lock | permutation invariance |
| C10, C12, C13 | boxes over float32 with rounding, recursion over objects with fuel | induction; counterexamples |
| C14, C15 | `errors` package | structural induction |
| C16–C19 | byte-level parsers | case analysis over bytes, finite tables |
| C20 | decimal formatting and correctly rounded parsing | nearest-point argument |
| C21 | tables of enumerations | case analysis |
| C22–C25, C52 | byte-level XML reader and printer | induction over inputs, state invariants |
| C26, C27, C53 | decoder over tokens | invariants of the stack and the registers |
| C28–C35 | decoder after encoder, through the bytes | one lemma per element, induction over lists |
| C36 | production attributes and `SetMissingUUIDs` | list induction |
| C37–C44 | validators as functions to lists of errors | soundness and completeness against separate predicates |
| C45–C47, C54 | STL readers, quantisation | induction over the stream; interval arithmetic |
| C48, C49 | goroutines that decode child models, cancellation points | invariants over interleavings |
| C50, C51 | packages over an abstract OPC library | list invariants |
| C55 | packages written and read back | C28, C48, C50 and C51 put together |
| C56 | matrix products | exact on integers, error bounds on all finite results |
| C57 | pair and vector dictionaries | induction on the history of calls |
| C58 | texts of errors | injectivity by splitting at separators |
| C59 | markup read as XML 1.0 defines | grammar of XML with modes (Spec/Markup), both directions by induction on the derivation and on the input |
| C60 | documents as trees, read as what they mean | tables of elements and attributes and a value for each element (Spec/Document); one run lemma per element, induction over contents |
| C61 | numbers read as ST_Number, correctly rounded | grammar and rational value (Spec/Decimal), nearest point with ties to even, scan by induction |
| C62 | packages, read as what their parts mean | C60 for each part, C48 for the interleaving, C51 for relationships and attachments |
| C63 | errors of Validate, against a list of rules | one lemma per validator: its errors are those of its rules; composed along the location |
| C64 | Validate before Encode and after Decode | the rules of C63 depend only on what rounding leaves alone; transport of rules and of termination along C28 and C55 |
| C65 | writing and reading several times | the function that C28 gives for one round is idempotent up to values that round to a default |
| C66 | termination of Validate | fuel large enough for all finite walks; an object without result has a component without result, which gives an endless chain by choice |
| C67 | STL import, validation and saving together | rules of a model with one object more (Lemmas/Grow) by C63 and C66; C28 and C54 for the corners |
| C68 | reading, saving and reading again | the conditions of C28 follow for the model that C60 describes, by going through the document (Lemmas/Savable); C28 and C65 for the rest |
| C69 | packages: reading, saving and reading again | the model that C62 describes meets the conditions of C55, by C68 for the parts and by the relationships of the package for the paths |
| C70 | `Encode` with failing writers against the pure `encodePkg` | `BufW.Inv`: what is written and what is in the buffer is what was given; calls of the printer concatenate to `printOps`; induction over the parts |
| C71 | streams of attachments before and after `Encode` | `copyLoop` uses up the stream; false for models with attachments |
| C72 | `processOPC` of a decoder that was used | the files do not depend on the model; false for packages with child parts |
| C73 | capacity that is allocated against the size of the file | the header alone decides; `C45_language` for the files that are read |
| C74 | success against the ends of the sources of all parts | invariant of the goroutines; `lex_eof`: the lexer returns io.EOF only at the end of the source; language from C59 |
| C75 | what the model has before and after `Decode` | invariant of every step of the decoder, with the number of elements that were there before (Lemmas/Adds); goroutines and packages |
| C76 | slices as windows of shared arrays (Model/Share) before and after `Encode` | frame lemmas for `append`, both loops; the witness |
| C77 | the calls of `Open` and `Close` of every run of `DecodeContext` (Model/Handles) | number of open parts as an invariant of the steps of the goroutines; attachments one after the other |
| C78 | the calls that `Encode` makes of the package writer, in order, with any failures (Model/Calls) | a machine that ignores what comes too late; invariant that the log is in time and the machine has the parts of `encodeIO` |
| C79 | The records as memory with pointers; both linked lists are disjoint and cover the memory (Spec.StkHolds); simulation of RawToken | Model/XmlStack.lean, Props/C79.lean |
| C80 | The pools as arrays and slices; different buffers have different arrays (Spec.PoolOk); the attributes so far are all there (Spec.PoolHas) | Model/AttrPool.lean, Props/C80.lean |
| C81 | Calls as threads that take the lock, access the map and release the lock; invariant counts the holders of the lock and relates the map to the log of accesses | Model/Registry.lean, Props/C81.lean |
| C82 | memory model of errors, ownership of the cells of an expression by induction on it | shared errors violate it (witnesses) |
| C83 | Validate with any validators; accumulators as nil or a list, permutation of the reports with core errors and answers | undeclared extensions are not asked (witness) |
| C84 | Model of a disk with names, contents and open files (`Files.lean`); the package library is a parameter that reads through ReaderAt. | Names with two links to one content are excluded; the file does not change while Decode runs. |
| C85 | Token sequences with and without a text in front; the tokens of a UTF-16 document. | `mem`, the memory of texts of unknown elements, is shifted by the token of the mark. |
| C86 | Closed form of the relationships that are added; acceptance of a list of parts is invariant under permutation. | Which of several errors is returned is not stated. |
| C87 | Every validator sees the model through the find methods and fields that are not the map; the sorted list of names does not depend on the map order. | Validators of private extensions are not included (C83). |
| C88 | Tables of numbers and texts; the text of other numbers is empty and is not the text of a constant. | The rest of the model has fields with named values only. |
| C89 | The recursions with a counter; a chain of objects each made of two copies of the next one. | Only calls are counted, not the search for objects. |
| C90 | The XML reader does not amplify | Each step of the reader consumes at least as many bytes as it hands out: a potential (remaining input, plus the name still to be closed) falls by the size of the event; summed over the calls by induction on the size of the state |
| C91 | The core content of a file does not depend on the registered extensions | Two runs of the decoder in step: the stacks agree up to decoders of extensions on top, whose names are a sublist of the open elements that are not of the core; an erasure of Any, AnyAttr and extension assets commutes with the decoders of the core and is invariant under the others |
| C92 | a program that does not know an extension passes its content on | forget replaces content by tokens; events of the two models are equal; round trip of both |
| C93 | min and max return the second argument if the first is NaN or the second is NaN; fold over the coordinate values | `Props/C93.lean` |
| C94 | documents that differ in their presentation only are read alike | the meaning of C60 is invariant, by induction on the relation; faults are permuted |
| C95 | documents with other prefixes are read alike | the meaning of C60 commutes with the renaming, the faults are equal |
| C96 | a change of identifiers changes no answer | every validator commutes with the renumbering; the searches for nested components only if all parts are renumbered alike |
| C97 | additions to a valid model do not disturb it | lookups that succeed stay the same, so no validator changes its mind |
| C98 | the order of resources and items does not matter | lookups are the same after a permutation; acceptance is a conjunction over elements; results of goroutines are the orders |
| C99 | what nothing refers to can be removed | lookups of references are the same, acceptance is a conjunction over elements, positions only matter for beam lattices and shrink together |
| C100 | cut files are not taken for complete ones | the reader gives the same tokens on a longer text except for text at its end; an element that is open at the end is an error; after the root element text changes nothing |
| C101 | the presentation of an STL file does not matter | both loops keep the invariant that the mesh is what the builder makes of the points so far; the points determine the mesh |
| C102 | what is written is UTF-8 and consists of XML characters | escaping by induction with the decoder of runes; the printer keeps the invariant that all prefixes are texts; then all encoder functions |
| C103 | no tag that is written has the same attribute twice | the names of every tag are a sublist of a list of distinct literals, followed by the additional ones in a name space; the array shared by the triangles keeps its names |
| C104 | what is written is a well-formed document | induction over the tokens: the escaped texts, tags and attributes are in the common grammar of XML and the reader; the stack of open elements gives the nesting; C102 and C103 give the rest |
| C105 | what is written follows the schema of the core specification | the schema as a set of sequences of tags; the tags read are those of the tokens written; one lemma per element |
| C106 | what is written follows the schemas of the extensions | as C105, with one lemma per element of an extension |

The status of each property is in `MANIFEST.json`, with a note of what is missing.

## 4. Assumptions and simplifications

Go and its standard library:

* `sort.Ints`, `sort.Strings`, `sort.Slice` return a sorted permutation.
* `sync.WaitGroup`, `sync.Mutex`: join and mutual exclusion.
* `int` has 64 bits.  float32 operations are rounded to nearest even and are not fused (amd64); the conversion of an
  out-of-range float to int32 gives −2³¹ (amd64).
* `strconv.ParseFloat(s, 32)`, `ParseUint`, `FormatFloat(f, 'f', prec, 32)` are modelled from their documentation:
  correctly rounded.  A negative `prec` stands for the shortest text that is read back as the same number.
* `strings.EqualFold`, where it is used for attachments, is comparison after an arbitrary fold function.
* `bufio.Reader`, `bufio.Scanner`, `bytes.Buffer` as in their documentation; the capacity to which a `bytes.Buffer`
  grows is a parameter.
* A reader ends with an error that is repeated by further reads.

The repository:

* The OPC library (github.com/qmuntal/opc) is a record of three functions: normalisation of a name, resolution of a
  target against a source, acceptance of a new part.  A part is created with its content and relationships at once.
* Errors of the underlying writer, of streams of attachments and of `bufio.Writer` are not modelled.
* The messages of syntax errors are not modelled, only that there is one.
* In `errors`, lists are values: two owners of one list that append to it independently are not modelled.
* Each child part is decoded in a private copy of the model; `C48_private` proves that nothing else is touched but the
  slice `Any`, which is modelled as shared.  This is faithful for parts with different names.
* STL: a context is given by what `Done` tells when the mesh has a certain number of triangles; the allocation of a
  huge number of facets does not fail.

## 5. Findings: where the code violates the property

Each entry is a theorem: a concrete counterexample in the model.  Beside each, the theorem ending in
`_partial` of the same property says what does hold.

### C01 UnusedID returns a free identifier, the lowest one

* `C01_unusedID_duplicate_false` – The property fails with a repeated identifier: with objects 1, 1, 2 the answer is 2, which is taken.
* `C01_unusedID_zero_false` – The property fails with an identifier 0: with objects 0, 1 the answer is 1, which is taken.

### C100 A file that is cut short is not taken for a complete one

* `C100_empty_false` – **C100**: what the claim does not allow: a part without any element, such as one of no bytes at all or one that is cut after the XML declaration, is read without an error, and the model is left as it was.
* `C100_ascii_false` – **C100**: an ASCII STL file that is cut between facets, or inside of one, is read without an error and with fewer triangles: the line `endsolid` is not looked for, nor is the end of a facet.
* `C100_number_false` – **C100**: a file that is cut inside of a number is read without an error and with another vertex.

### C101 The presentation of an STL file does not matter

* `C101_header_false` – What the claim does not allow: the header of a binary file decides whether its facets are read.

### C102 What is written is UTF-8 and consists of XML characters

* `C102_prefix_false` – **C102** is violated: a prefix is written as it is.
* `C102_triangle_false` – **C102** is violated (encoder.go:466-508): the value of an additional attribute of a triangle is written as it is, though all names are texts.
* `C102_reread_false` – **C102** is violated also by a model that has been read: the reader takes any byte beyond ASCII for a part of a name.

### C103 No tag that is written has the same attribute twice

* `C103_triangle_false` – **C103** is violated (encoder.go:473-501): triangles share an array of attributes, and an additional attribute of one takes the place of `pid` in the next. The second triangle is written with the attribute `q:note` twice and without `pid`.
* `C103_prefix_false` – **C103** is violated (encoder.go:232-234): two extensions with the same prefix are both declared.

### C104 What is written is a well-formed document

* `C104_prefix_false` – **C104** is violated: a prefix is written as it is.
* `C104_triangle_false` – **C104** is violated: the values of the attributes of triangles are not escaped.

### C105 What is written follows the schema of the core specification

* `C105_thumbnail_false` – **C105** is violated: the thumbnail of a model becomes an attribute that the schema does not have.
* `C105_object_false` – **C105** is violated: an object without a mesh and without components is written as an empty element.

### C11 Model.BoundingBox is schedule independent

* `C11_nan_false` – **C11** fails when a coordinate is NaN (the decoder accepts `x="NaN"`): two schedules give different boxes.

### C12 Model.BoundingBox encloses the placed geometry

* `C12_rotation_false` – **C12** fails for a rotation: only two corners of the box are transformed, and the image (1, 1, 1) of the vertex (1, 0, 1) is outside the box.
* `C12_origin_false` – **C12** fails for an object all of whose vertices are at the origin: its box counts as empty, also if it is moved.
* `C12_path_false` – **C12** fails for components of components in another part: the object 1 of the root refers to the object 2 of the part `/a`, which refers to the object 3 of its own part, a dot at (1, 1, 1). The code looks for object 3 in the root part, where it is a dot at (1, 0, 0).

### C13 BoundingBox terminates on validated models

* `C13_cycle_false` – **C13** fails: `Model.Validate` accepts two objects made of each other, on which `Model.BoundingBox` does not terminate.
* `C13_path_false` – **C13** fails also without cycles: `Spec.acrossParts` is accepted and no object contains itself, but the code looks for the object 1 in the root part, and does not terminate.

### C15 Error wrapping keeps the target and reports the full path

* `C15_is_list_false` – But `errors.Is` does not see every error of a list: it finds only what its first member holds.

### C19 uuid.Validate accepts exactly the UUID forms

* `C19_braces_false` – **C19** fails as stated: the brace form accepts any first and last byte (uuid/uuid.go:107-108).

### C23 What the XML writer prints, the XML reader reads

* `C23_scope_false` – **C23** is false for nested declarations: the element `y` of the name space `u` is read as of the name space `b`.
* `C23_attr_false` – **C23** is false for attributes in name spaces that are not declared: the name space is written as the prefix, and the document cannot be read.
* `C23_elem_false` – **C23** is false for elements in name spaces that are not declared: the name space is lost.

### C25 Parsing does not depend on how the reader delivers bytes

* `C25_empty_false` – **C25**, where it fails: 100 empty reads in a row are an error, even if bytes would follow.

### C26 Decoding never panics

* `C26_roots_false` – **C26** is false: a second root element `model`.
* `C26_name_false` – **C26** is false: an element without name space and local name.
* `C26_attr_false` – **C26** is false: an attribute in the name space of the materials extension.
* `C26_lattice_false` – **C26** is false: a beam lattice among the resources.
* `C26_path_false` – **C26** is false: a model whose path is neither empty nor the default path.
* `C26_nested_false` – **C26** is false: an element `model` inside of the model.

### C28 Core models survive encode then decode

* `C28_components_false` – An object with components loses its property.
* `C28_both_false` – An object with a mesh and components loses the components.
* `C28_default_false` – A triangle without a property comes back with the one of its object.
* `C28_bottom_false` – The sign of a zero at the bottom of a slice stack is lost.
* `C28_transform_false` – Transforms have three decimals at every precision: a translation by 0.0004 is lost.

### C29 Triangle property assignment survives encode/decode

* `C29_alias_false` – Unknown attributes of a triangle overwrite the name `pid` in the array that all triangles share: the next triangle loses its property, and no error is reported.

### C30 Unknown attributes are preserved

* `C30_triangle_false` – A triangle gets an unknown attribute that it does not have: the name is the one of an attribute of the triangle before, the value is its own property.
* `C30_escape_false` – Attributes of triangles are not escaped: with a quote in the value, the file cannot be read.
* `C30_xml_false` – Attributes in the name space `xml` are dropped on the root element, though no extension knows it.
* `C30_empty_false` – Attributes of a group of metadata without metadata are not written.

### C31 Unknown elements are preserved token by token

* `C31_text_false` – The array of the buffer is used again: the kept text `hello` reads `model`, the name of the last end tag.
* `C31_nested_false` – An element inside of one with the same name ends it: the rest becomes an element of its own and the end tag is lost.
* `C31_overwritten_false` – Both texts are lost, and the second is not what is left of the first.

### C32 Every extension element of a model or mesh is written

* `C32_first_false` – The other elements leave no trace: the document is the same without them.
* `C32_second_false` – Of two elements the second one is lost, and no error is reported.

### C34 Slice stacks survive encode then decode

* `C34_segment_false` – The properties of a segment without group are lost; no error is reported.

### C35 Beam lattices survive encode then decode

* `C35_radius_false` – A second radius that is the one of the lattice is not written, and read back as the first one.
* `C35_zero_false` – A radius of zero is not written, and read back as the one of the lattice.

### C36 Production attributes survive encode then decode and never lose a UUID

* `C36_empty_false` – An item with a path and without UUID is decoded without error, but it is written with an empty UUID, which is not accepted: decoding fails.
* `C36_build_false` – A build with production attributes and without UUID gets none.

### C37 Validate accepts only models whose references resolve

* `C37_group_false` – **C37** fails: the properties of a triangle may refer to a texture, which has none.
* `C37_zeroId_false` – **C37** fails: a slice stack need not have an identifier.
* `C37_emptyPath_false` – **C37** fails for a child model stored under the empty path: its triangles may refer to the materials of the root model.

### C38 Validate accepts every conforming core model

* `C38_large_false` – **C38** fails for a mesh of 2^32 vertices: their number is truncated to 0, and every triangle is reported.

### C39 Validate rejects recursive component definitions

* `C39_cycle_false` – **C39** fails: a cycle of two objects is accepted.

### C41 Metadata validation

* `C41_decoded_false` – A metadata with a declared name space, decoded without error, does not validate: the decoder stores the prefix (decoder.go:166), the validation looks for the name space.

### C42 Materials validation rejects dangling indices

* `C42_composite_false` – **C42** fails: the index 1 of a group of one material is accepted in composite materials.
* `C42_multi_false` – **C42** fails: the index 1 of a group of one material is accepted in multi-properties.
* `C42_texture_false` – On the other hand the second entry of a group of texture coordinates is rejected in multi-properties: their number is taken to be 0.

### C43 Beam lattice validation rejects dangling references

* `C43_sets_false` – **C43** fails: a beam set may refer to the beam 1 of a lattice of one beam.
* `C43_clip_false` – The check of the clipping mesh is inverted: a lattice clipped by no mesh is accepted in mode `inside`, and rejected in mode `none`, in which no mesh is needed.

### C44 Slice validation

* `C44_bottom_false` – **C44** fails: the first slice may have no height.
* `C44_nan_false` – **C44** fails: heights that are NaN are accepted.
* `C44_vertices_false` – **C44** fails: a polygon may use vertices that do not exist.
* `C44_repeat_false` – **C44** fails: a segment may lead from a vertex to itself.

### C46 ASCII STL import reads every facet

* `C46_malformed_false` – What is missing: a line that should be a vertex line but is not well formed is not an error. A word that is not a number reads as 0, a number that is too large as an infinity, and a line with a missing or an additional coordinate is skipped, so that the following vertex takes its place in the facet.
* `C46_long_false` – Also missing: a line of 65536 bytes or more, even one without meaning, is an error.

### C47 Importing a STL file picks the right format and honours cancellation

* `C47_small_false` – A well-formed file of less than 300 bytes is rejected: here a binary file with four facets, a tetrahedron.
* `C47_smallAscii_false` – So is a small ASCII file.
* `C47_hang_false` – A reader that fails with another error than `io.EOF` before the first 300 bytes makes the decoder loop for ever.
* `C47_cancel_false` – What is missing: a binary file with 3000 facets is imported although the context is done from the beginning.

### C48 Child models are decoded independently of scheduling

* `C48_error_false` – **C48**: nobody has cancelled the context of the caller, but the error returned is `context.Canceled`: a goroutine that is cancelled because another one failed overwrites the error of the latter.
* `C48_any_false` – **C48** is false of `Model.Any`: the elements of two child parts are appended without synchronisation, one of them is lost in some interleavings.
* `C48_twice_false` – **C48** is false if two relationships of the root part have the same target: the part is decoded by two goroutines into the same resources. Even if they run one after the other its objects are there twice.

### C49 Cancelling a decode takes effect

* `C49_empty_false` – **C49** is false if the root part is empty: it has no token, and the context is only looked at after a token.

### C50 Package writing registers each part and relationship once

* `C50_type_false` – **C50** is false of the types of the relationships of parts: `xmlEncoder.AddRelationship` only compares the targets. The relationship of the texture is not written because there is another one with the same target.
* `C50_shared_false` – **C50** is false if an image is both a texture and the thumbnail of an object: the relationship of the thumbnail is missing.

### C51 Package reading collects attachments once

* `C51_unreadable_false` – **C51** is false of files that cannot be read: the relationship is recorded, the attachment is not, and there is no error.
* `C51_roots_false` – **C51** is false if the package has two relationships to the root part: the relationships of the root part and of the child parts are recorded more than once.
* `C51_twice_false` – **C51** is false if the root part has two relationships to the same child part: the relationships of the child part are recorded twice.

### C53 Decode errors point at the offending element

* `C53_skip_false` – **C53** is false: elements that the decoder does not know are not in the path, and their children are read as if they were not there.
* `C53_segment_false` – **C53** is false: the first segment of a polygon is reported as the second one (slices/decoder.go:217).
* `C53_color_false` – **C53** is false: a colour without value does not count (materials/decoder.go:76-91).

### C54 Vertices are merged only if they are close

* `C54_far_false` – What is missing: beyond 2147.48 units the quotient does not fit in an int32, all these coordinates fall together, and points that are far apart become one vertex.

### C55 Packages survive encode then decode

* `C55_attachments_false` – **C55** is false of attachments to which no relationship leads: they are lost.
* `C55_metadata_false` – **C55** is false of the metadata of the objects of child models: child parts are decoded before the root part, when the prefixes of the model are not known, and the name space is left in the name.
* `C55_any_false` – **C55** is false of the other elements of child models: they become elements of the root model.

### C56 Transforms compose

* `C56_order_false` – C56 fails for the order of the factors as documented (row major): `a.Mul(b)` is not the product `a · b`.
* `C56_compose_false` – C56 fails for a second factor that is not affine: `Mul` uses its last column and `Mul3D` ignores it.
* `C56_rounding_false` – C56 fails for other numbers: the two ways of composing are rounded differently.
* `C56_identity_false` – C56: the identity is not neutral for an infinite number: 0 · ∞ is not a number.

### C58 The text of an error identifies it

* `C58_name_false` – C58 fails for other names: a location does not tell an index from a name with brackets.
* `C58_space_false` – C58 fails for part names with spaces.
* `C58_list_false` – C58 fails for elements with line breaks.

### C59 Well-formed markup is read as XML 1.0 defines

* `C59_sections_false` – Comments, `CDATA` sections and the document type declaration are rejected as syntax errors: the documents `<a><!--x--></a>`, `<a><![CDATA[x]]></a>` and `<!DOCTYPE a><a></a>` are well formed, but the reader fails.
* `C59_values_false` – Line ends in attribute values are not read as blanks.

### C60 A document is read as what it means

* `C60_closed_false` – **C60** is false: attributes of vertices and triangles that are not in the schema are parsed as numbers (decoder.go:464-488, 530-587).
* `C60_slices_false` – **C60** is false: the elements of slices read attributes of any name space (slices/decoder.go:72-91).
* `C60_text_false` – **C60** is false: only the last piece of the text of metadata is kept (decoder.go:180-182).
* `C60_nested_false` – **C60** is false: an element of an unknown extension ends with the first element in it that has the same name (read.go:110-122).
* `C60_twice_false` – **C60** is false: if an object has two meshes, which the schema forbids, nothing is reported and the first one is lost (decoder.go:397-398, 626-627).

### C61 Numbers are read as the schema defines, correctly rounded

* `C61_schema_false` – **C61 is violated**: words and forms outside of ST_Number are read as numbers.
* `C61_long_false` – **C61 fails for long numbers.** A text of the schema that denotes one is read as zero.

### C64 Saving and loading does not change the result of validation

* `C64_heights_false` – Without `StableModel` the statement is false: slices at 0.00001 and 0.00002 are accepted, and with four decimals both are read at 0 and rejected.
* `C64_tilted_false` – And what is rejected may be accepted after it was written: a transform with an entry 0.0001 tilts, and is read as one that does not, for transforms are written with three decimals.

### C65 Saving again does not change a model again

* `C65_transform_false` – A transform that rounds to the identity is written the first time and left out the second time.
* `C65_radius_false` – The second radius of a beam that rounds to the radius of the lattice is left out the second time, and a radius that is left out is read as the first radius of the beam: 1.00001 becomes 1, and then 2.

### C66 Validate returns unless it walks in circles

* `C66_cycle_false` – **C66** fails: `Validate` does not return for a model with two objects made of each other and an object with a slice stack, although it accepts the same model when the slices extension is not registered.
* `C66_path_false` – **C66** fails also without cycles: the validator looks for the component of the object 2 of the part `/a` in the part of the object with slices, and does not return.

### C67 An imported STL file gives a valid model that survives saving

* `C67_production_false` – With the production extension, the new object lacks a UUID, and the model is rejected.
* `C67_slices_false` – The validator takes the new item, which refers to the object 2 of the root part, for the object 2 of the part `/a`.

### C68 A file that was read can be saved and read again

* `C68_element_false` – **C68** is false for an element that declares its own prefix: it is read, with the declaration, and saved with the prefix in its end tag only, so that the file cannot be read any more (internal/xml/printer.go:50-97).
* `C68_attribute_false` – **C68** is false for an attribute with a prefix that its own element declares: it is read, and saved with the name space in place of the prefix, so that the file cannot be read any more (internal/xml/printer.go:21-41).

### C69 A package that was read can be saved and read again

* `C69_twice_false` – **C69** is false if another relationship leads to a child part: the part is an attachment, too, and the library refuses to write two parts with one name (encoder.go:146-218).
* `C69_prefix_false` – **C69** is false if a child part declares a prefix that the root part does not declare: it is saved without the declaration, and the reader does not accept what is written in place of the prefix (decoder.go:53-90, internal/xml/printer.go:21-41).

### C71 A model can be saved again

* `C71_again_false` – FALSE: saving a model twice, with two encoders to which everything can be written, gives the same package twice.

### C72 A decoder can be used again

* `C72_reuse_false` – FALSE: a decoder that has decoded a model decodes the next one as a new decoder would.

### C73 The memory for a binary STL file is bounded by its size

* `C73_reserve_false` – FALSE: memory is allocated for at most one triangle per facet in the file. 84 bytes are enough to make the decoder allocate memory for 2³² - 1 triangles, of 56 bytes each on machines with 64 bits.

### C74 A decode without error has read everything

* `C74_attachment_false` – **C74 fails for attachments.** An attachment that cannot be read is left out without an error; its relationship is kept.
* `C74_empty_false` – **C74 fails for parts without a model.** An empty part, and a document of another kind, are read as a model without objects.
* `C74_root_false` – **C74 fails for documents with other roots.** Two models one after the other, and a model in another element, are read as one model.

### C75 Decoding adds to the model that is given

* `C75_units_false` – **C75**: what is added is not what the document means. A document without a unit is in millimetres, but the unit of the old model stays (decoder.go:62-66).
* `C75_required_false` – **C75**: the extension that the document requires is not marked as required, but an extension of the old model that has the same prefix (decoder.go:76-84).
* `C75_index_false` – **C75**: the errors have the indices of the elements in the model, not in the document.
* `C75_attachment_false` – **C75**: a file of the package that is called like an attachment of the old model, up to case, is not read: the old one stays (read.go:293-297).
* `C75_child_false` – **C75**: a child part that is called like a child part of the old model replaces it: its objects are lost (read.go:277).

### C76 Saving leaves the memory of the model alone

* `C76_shared_false` – Saving two child models whose relationships share an array changes the second one, and its part is written without the relationship to `/b.png` and with one that it does not need.

### C81 Extensions can be registered and looked up from any goroutine

* `C81_twice_false` – C81: spec/spec.go:16-18 says that `Register` panics when it is called twice with the same name space. It does not: both calls return, and `Load` finds the second extension.
* `C81_nil_false` – C81: it also says that `Register` panics if the extension is nil. It does not, and `Load` then says that there is an extension, which is nil.

### C82 Errors are wrapped without changing other errors

* `C82_shared_false` – An error that is wrapped twice, here first for one object and then for another, has both places in both results: wrapping changes what the caller still holds.
* `C82_append_false` – `Append` onto a list that the caller still holds extends that list.

### C83 The validators of private extensions are heard

* `C83_undeclared_false` – spec/spec.go:51-52 says that `Validate` calls the validator of a `Spec` that has one. It does not unless the model declares the name space: here one is registered that rejects everything, the model has an attribute of its name space, and `Validate` returns nil.
* `C83_typedNil_false` – A validator that returns a nil `*List`, which is what a function with the result type `*errors.List` returns if it finds nothing, makes `Validate` return an error, the empty list.

### C84 Files are opened, saved and closed as they should be

* `C84_kept_false` – **C84** is false of a file that is replaced by a model that cannot be saved: `CreateWriter` removes the content of the file before it is known whether there is anything to replace it (encoder.go:118-119).

### C85 Documents are read in the encoding that they are in

* `C85_utf16_false` – **C85** is false of UTF-16: every document in UTF-16 that begins with `<` and a character below U+0100 is a syntax error, and nothing of it is read.
* `C85_latin_false` – **C85** is false of other encodings: a document in an encoding that the reader does not know is read without an error, and the names in the model are not texts in UTF-8.

### C86 Saving a model is reproducible

* `C86_order_false` – **C86 does not hold for the bytes of the package**: the same model saved twice gives packages in which the parts, and the relationships of the root part, come in different orders.
* `C86_relationships_false` – Nor for the relationships of the root part.

### C88 A number that is no value of an enumeration is not taken for one

* `C88_texture_false` – **C88 does not hold for textures**: a tile style, a filter or a content type that is none is read back without an error as the zero value.
* `C88_cap_false` – **Nor for the caps of a beam**, which is read back with the cap mode of the lattice.
* `C88_blend_false` – **Nor for blend methods**: a method that is none vanishes, and the methods of the following layers are read back for the layers before them, without an error.

### C89 The time for a bounding box or a validation follows the size of the model

* `C89_box_false` – **C89 does not hold for the bounding box**: for every `n` there is a model with `n + 1` objects, `2 n` components and one item, which `Validate` accepts, for whose bounding box `2^(n+1) - 1` calls are made.
* `C89_slices_false` – **Nor for the validation of slices**: for the object at the end of the chain `validateObjectTransforms` is called `2^(n+1) - 1` times, and finds nothing.

### C91 The core content of a file does not depend on the registered extensions

* `C91_skipped_false` – The object is read if the extension is registered, and is not if it is not registered.

### C92 A program that does not know an extension passes its content on

* `C92_foreign_false` – Files that were not written by this library: of several elements of extensions in a mesh only the first one is passed on.

### C93 A coordinate that is not a number spoils only itself

* `C93_nan_false` – **C93 is violated**: the box of a model that is accepted does not cover a vertex with finite coordinates, because the next one has the coordinate NaN.
* `C93_overflow_false` – **C93 is violated**: a model with finite coordinates and transforms is accepted, a product overflows, and the box covers the other item or not, as the goroutines are scheduled.

### C94 The presentation of a document does not matter

* `C94_order_false` – **C94 is violated**: the order of the attributes of a slice decides which of them counts, as the name space is not looked at (slices/decoder.go:72-91).
* `C94_alias_false` – **C94 is violated**: of the two names of the minimal length of beams the last one counts.
* `C94_comment_false` – **C94 is violated**: a processing instruction in the text of metadata takes away what is before it, and a comment between elements ends the reading (internal/xml/xml.go, C59).
* `C94_name_false` – **C94 is violated**: an element without a meaning ends the element around it if it has the same name: a triangle is lost.

### C95 The choice of name-space prefixes does not matter

* `C95_metadata_false` – **C95 is violated**: the name of metadata depends on the prefix that its name space has in the document (decoder.go:165-167).
* `C95_validate_false` – **C95 is violated**: whether a model is valid depends on the prefix: the prefix is compared with the name spaces (validate.go:119-128).
* `C95_declaration_false` – **C95 is violated**: an extension that is declared where it is used instead of in the root element is read but not validated (validate.go:241-245): a beam to a vertex that does not exist is accepted.

### C96 Identifiers of resources are names, local to a part

* `C96_box_false` – C96 is not true of the code for the box of an object, if only one part has other identifiers: the component of the child part is looked up in the root part.
* `C96_slices_false` – C96 is not true of the code for `Validate` with slices, if only one part has other identifiers: the object of the child part is taken for the one of the root part that has the same number.

### C97 Additions do not disturb what is there

* `C97_box_false` – C97 is not true of the code for the box, if there are child parts: a new object is taken for one of a child part.
* `C97_slices_false` – C97 is not true of the code with slices and child parts: a new object is taken for one of a child part, and `Validate` rejects an old object because of it.

### C98 The order of resources and items does not matter

* `C98_lattice_false` – The condition on beam lattices is needed.

### C99 What nothing refers to can be removed

* `C99_missed_false` – The condition is needed: without the base materials the model is rejected.
* `C99_box_false` – Without any items the box is that of the origin, which need not lie in the old one.

### Further observations, not stated as theorems

* `opcReader.Open` dereferences nil if `opc.NewReader` fails and a decompressor is set (opc.go:105-107).  The field
  `Decoder.flate` is not exported and nothing sets it, so the branch is dead.
* The public method `Object.Validate(m, path)` dereferences nil if there are no resources for the path and a property is
  used; `Model.Validate` calls it with paths that exist only.
* `Attachment.Stream` may be nil in a model that was built by hand: `Validate` does not look at it, and `io.Copy` of
  `Encode` panics.  Nil pointers in the lists of a model are not modelled.
* `&#0;` is accepted by the reader.
* `BottomZ` of −0 is written as absent and read as +0; signed zeros make boxes depend on the order of the vertices.
* `processOPC` cannot be cancelled.
* `Validate` accepts an object whose list of components is empty, and an object that is not of type model or solid
  support with an empty mesh; the schema of the core specification wants at least one component and three vertices
  (example in Props/C106Valid).

## 6. Tests of the theorems

`seeded/LOG.jsonl` lists wrong programs: each line is an edit of the model as a realistic bug would make it, the claim
it should break, and the theorems whose proofs failed to build in a scratch copy.  Where an edit survived, the
entry has a note: either the edit changes nothing that can be observed, or a theorem was added or tightened and the edit
was tried again (the repetition is a later entry).

What an entry shows is limited.  `failed` lists proofs that no longer build.  Modules that import a failed module are not
built, so that in about three quarters of the entries (1089 of the first 1492) only lemmas or examples are listed, and no theorem named `Cnn_…`
was reached.  There the entry shows that the edit does not go unnoticed by the build, but not that the statement of the
property is false of the edited model; a proof can also fail because it follows the text of a definition (the lemmas
`…_eq` above all).  The remaining entries with a failure list at least one theorem `Cnn_…`, to which the last
restriction applies as well.  The edits were mostly chosen per definition, some of them generated by a script, and are
not a random sample; the share of edits that were found is not a measure of completeness.
