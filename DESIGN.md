# Formal model of lcp-physics in Lean 4

## Layout

* `lean/Verif/Model/*.lean`: the model. Definitions only, each citing file and lines in `/repo`.
* `lean/Verif/Spec/*.lean`: small independent specifications used in theorem statements.
* `lean/Verif/Lemmas/*.lean`: helper lemmas.
* `lean/Verif/Props/*.lean`: the property theorems, named `Cnn_...`, with non-vacuity examples beside them.
* `properties.jsonl`, `MANIFEST.json`: the properties and which theorems settle them.
* `seeded/LOG.jsonl`: wrong programs the theorems were tried against.

## Modelling decisions

* **Numbers.** Torch doubles and Python floats are modelled by exact real numbers (`R` of Mathlib). Rounding,
  overflow and signed zeros are not modelled. Where the code divides by a quantity that can be zero, the model
  either records the result as an explicit error / NaN outcome, or the theorem carries the exact guard.
  (`get_step` uses `EReal`, because there the infinity decides the outcome.)
* **Tensors.** World-level tensors that the code fills by slice assignment are functions `Nat -> Nat -> R` with the
  slice assignments modelled literally; solver-level tensors are Mathlib matrices over `Fin n` / sums.
* **Objects.** Mutable objects become values; a method that mutates returns the new value. `body.pos`/`body.rot`
  are views of `body.p` in the code and functions of `p` in the model. Object identity is modelled by indices.
* **Loops** that may not terminate take fuel and return `none` when it runs out; theorems speak about every fuel,
  and termination is a separate theorem.
* **External code** is a parameter with a stated contract; see "Contracts" below.
* **Errors.** Python exceptions are `Except.error` / `Run.raised` values carrying the exception name; a loop that has
  not ended is `Run.running`. A contact point that would be infinite or NaN is the error "nonfinite"; a NaN contact
  normal is recorded in a flag of the contact, because the code carries it on. `rejectNan` is the contact search that
  stops there; the engine theorems are about worlds without NaN contacts, and C94/C93 say when NaN can arise.
* **Comparisons with NaN** are false, as in Python.
* **Autograd** (gradients of torch operations) is not modelled; `LCPFunction.backward`'s own formulas and
  `numerical_backward` are (C53, C75; the latter with the aliasing of tensor views).
* **Engine state.** `PdipmEngine`'s cached inverse is part of the world state (`Option Mat`), one engine per world.

## Contracts

What the theorems assume about code that is not in the model.

| external code | contract | where used | is the contract satisfiable? |
|---|---|---|---|
| LCP solver called by the engine | a parameter `LcpSolver`; theorems that need more assume `Exact` (what it returns solves the LCP) | C35-C43, C62, C76-C87 | `exactLcp` (Props/EngineExamples) satisfies it; when it returns: C71, C74 |
| the library's own solver | not assumed: `libraryLcp` is the model of `lcp.py`/`pdipm.py`; what it returns is characterised by the residuals it computed (`ApproxLaw`) | C70-C73, C93 | concrete runs in Props/LibraryExamples |
| LAPACK `btrifact`/`btrisolve` | `BtrifactOk`: a factorisation of a matrix is reported singular or solves exactly | C44-C55, C61, C70-C73 | `someBtrifact` (Lemmas/LuExists) |
| ODE broad phase `space.collide` | a function `pairs` from bodies to index pairs, valid and distinct; completeness (`AabbOverlap`) only where stated | C09, C12, C27, C76-C95 | `allPairs`, AABB test itself (C09) |
| `ode.collide` on two spheres | specified in Spec/Ode by centre distance and radii | C81 | it is a function |
| `random.choice` | an arbitrary stream of indices in the finder state | C15, C16, C65, C94 | every stream |
| force callbacks | arbitrary functions of time | C36, C56, C57 | gravity, impulses (Props/Forces) |

## Properties

| id | property | model and proof | status | remarks |
|---|---|---|---|---|
| C01 | Polar/cartesian conversion round-trips | Model over R with atan2 = Complex.arg and sqrt; prove by the arg/abs polar identity. | proved | exact reals; atan2 modelled by Complex.arg |
| C02 | Rotations are rigid and compose | Trigonometric identities over R. | proved |  |
| C03 | Every accepted Hull has a well-defined centroid and keeps its vertices where the caller put them | Shoelace identity: orientation sum = 2*denominator, by telescoping cyclic sums. | proved |  |
| C04 | Hull centroid is translation-equivariant and zero in the body frame | Cyclic-sum algebra. | proved | also: rotation equivariance, equals the fan-decomposed area centroid, lies in the convex hull for star-shaped vertex lists |
| C05 | Bodies are rigid: vertices always equal the initial vertices rotated by the current angle | Induction over the op list with the invariant verts = R(angle)*init. | proved |  |
| C06 | Rect is the Hull with the same corners | Direct computation plus induction over ops. | proved |  |
| C07 | Inertia is positive, pose-independent, linear in mass and quadratic in size; the mass matrix is positive definite | Sums of nonnegative terms with a positive denominator; quadratic form as a sum over bodies. | proved | inertia formulas of all shapes positive; M symmetric, its quadratic form is twice the kinetic energy, positive definite |
| C08 | Broad-phase orientation matches the body | Quaternion-to-rotation formula and half-angle identities. | proved | ODE's quaternion convention (w,x,y,z) is part of the trusted reading |
| C09 | Broad phase never hides a contact | AABB overlap from distance bounds; counterexample for small body eps. | proved | The ODE geometry built for a body covers the body grown by its eps (circles: sphere of radius rad+eps; hulls: sphere around the farthest vertex; rects: grown box), and this survives every pose update; hence bodies whose regions come within eps1+eps2 have overlapping AABBs. That the narrow phase reports a contact only if the broad phase presents the pair is proved for pairs with two circles and for two rectangles; for general hulls the statement is gap <= eps1+eps2 implies overlap. C09_small_eps_hides_contact: if a body's eps is smaller than half the world's, contacts the narrow phase would report are hidden. |
| C10 | add_no_contact is symmetric and always respected | Invariant by induction over calls. | proved |  |
| C11 | Circle-circle contact is exact | Case analysis of the branch, real algebra. | proved |  |
| C12 | Every reported contact is well-formed | Case analysis of all branches. | proved | the three branches of the default handler, both argument orders; NaN normals are flagged and excluded (hull pairs never give NaN: C12_hulls_never_nan) |
| C13 | Support mapping is a true argmax for hulls containing their reference point | Fold invariant; counterexample for the raise. | proved | false without the hypothesis that the origin is in the solid: C13_support_can_raise |
| C14 | get_closest returns the nearest point of the simplex and never raises on a non-degenerate one | Voronoi-region case analysis with variational inequalities. | proved |  |
| C15 | GJK terminates with the nearest point of the hull | Loop invariant plus strictly decreasing distance over a finite set of simplices. | proved | explicit iteration bound n^3+2; with collinear vertices the loop can raise (C15_collinear_can_raise) |
| C16 | Circle-hull contact is exact when the centre is outside the hull | Corollary of C15. | proved | false when the centre is on the hull: NaN normal (C16_centre_on_vertex_nan) |
| C17 | The separating-axis exit is sound and the SAT warm start is unobservable | Fold invariant: best = max over all edges; half-plane argument. | proved |  |
| C18 | Segment clipping keeps exactly the inside part | Case analysis on signs. | proved | the code's behaviour when both end points are outside is stated separately (extrapolated point) |
| C19 | Hull-hull contact points lie on the reference edge (true for Rect, false for general Hull) | Algebra for Rect; concrete counterexample for a triangle. | proved | hulls whose vertices are equidistant from the centre, in particular Rect; false for general hulls (C19_hull_contact_off_edge) |
| C20 | A step is only accepted without interpenetration | Loop post-condition, parametric in engine and contact finder. | proved | post-stabilization off; with it the claim is false (C20_post_stab_can_penetrate) |
| C21 | Time advances by dt/2^k and rejected sub-steps leave no trace on the bodies | Loop invariant: after rollback the bodies equal the start bodies. | proved |  |
| C22 | Rollback restores joints completely | Partial theorem for rot1/pos/pos1/pos2; exact formula for rot2 drift and a concrete counterexample. | partial | false for rot2: negation C22_rot2_not_restored with a concrete world, exact drift formula, non-interference of rot2; proved for all other joint state |
| C23 | Non-strict stepping always terminates | Explicit bound on the halving loop. | proved | the _returns theorems add that the step returns if its parts do |
| C24 | step(fixed_dt=True) lands exactly on t+dt | Loop invariant and potential argument. | proved | the _returns theorems add that the step returns if its parts do |
| C25 | World time strictly increases; run_world terminates and overshoots by less than one step | Well-founded progress of at least dt/8 per step. | proved | the _returns theorems add that the run returns if its parts do |
| C26 | Strict-mode termination is characterised by the contact finder | Equivalence with the least k. | proved | finder whose reported contacts depend only on the bodies |
| C27 | Circle worlds never interpenetrate; strict stepping terminates except for an identified case | Distance is convex along linear motion; contacts have non-negative normal velocity; non-contacts have slack eps. | proved | First drafted as unconditional termination, which is false: C27_strict_can_hang exhibits, for every restitution in (0,1], a world accepted by the constructor whose strict step_dt never returns with any exact solver (a contact exactly tol deep that was separating may approach at e times that speed, so every halved step is rejected). The positive theorems: C27_constructed (the constructor establishes the invariant), C27_never_interpenetrate (safety for whatever the solver returns), C27_terminates_unless_pressed (any solver), C27_strict_terminates and C27_inelastic_never_hangs (exact solver), and C27_inelastic_circles_run, where nothing is assumed about the solver's answer: jointless inelastic circles with any friction step forever without overlapping. Needs a complete broad phase (C09), symmetric no-contact sets (C10), tol below the sum of radii and -eps <= tol. |
| C28 | A revolute joint's anchor is rigidly attached to its first body | Invariant rot1 - angle constant, polar identities. | proved |  |
| C29 | Constrained degrees of freedom never move | Je v = 0 gives zero components; induction over steps. | proved | relies on an exact LCP solver (Spec.Exact) and a contact finder returning well-formed contacts |
| C30 | Velocity and position vectors slice consistently | List slicing lemmas. | proved |  |
| C31 | Post-stabilization does not change velocities | Unfolding of the step. | proved |  |
| C32 | The equality Jacobian computes anchor relative velocities | Block-assembly lemma by induction over the joint list. | proved |  |
| C33 | The contact and friction Jacobians compute contact-point relative velocities | Block-assembly lemma. | proved | fric_dirs = 2; for other values the assembly raises (C33_fric_dirs_not_two) |
| C34 | The assembled LCP is the Coulomb contact problem | Compute F z, G x blockwise for every size. | proved | both directions: every LCP solution is a solution of the contact law and conversely |
| C35 | Without contacts the engine solves the constrained Newton equations | Block matrix inverse algebra. | proved |  |
| C36 | Free flight follows the closed form | Induction on n. | proved | one step and n steps, closed form |
| C37 | The cached inverse is never stale | Invariant: cached = inverse of the (constant) system matrix. | proved | one engine object per world; sharing an engine between worlds is outside the model |
| C38 | Contacts are resolved without approaching velocity and with the restitution law | From C33/C34 and the exact-MLCP specification. | proved | exact LCP solver assumed (Spec.Exact) |
| C39 | Friction obeys the Coulomb cone and opposes sliding | Complementarity case analysis. | proved | exact LCP solver assumed (Spec.Exact) |
| C40 | Linear momentum is conserved | Row sums of the Jacobians vanish. | proved |  |
| C41 | Angular momentum is conserved | Uses C12 and C28 coincidence. | proved | conserved when contact points coincide; the exact defect is stated otherwise |
| C42 | Contact resolution never creates kinetic energy | Energy identity in the M-inner product. | proved | inelastic with friction, frictionless with common restitution, and central contacts (circles) with friction and any restitution in [0,1]. False in general: C42_friction_can_create_energy gives a corner contact, friction from 1/3 on, whose energy grows from 6.5 to 7.5 with restitution 1. |
| C43 | Frictionless post-impact velocity is unique | Strict monotonicity. | proved | frictionless; post-collision velocity unique. With friction false: C43_friction_not_unique gives two outcomes for one state (friction above 5/3). |
| C44 | solve_kkt solves the Newton system | Block elimination algebra over Mathlib matrices. | proved | exact LU solves, contract Factors; includes uniqueness of the Newton step |
| C45 | The incrementally re-pivoted block LU is always a factorisation of S(d) | Invariant S21 = Pnew^T * X over the call list. | proved | LAPACK contract BtrifactOk, shown satisfiable (Gaussian elimination, someBtrifact_ok); Q symmetric; raises exactly for singular systems, never for monotone F |
| C46 | efficient_btriunpack decodes LAPACK pivots | Induction over the pivot list. | proved |  |
| C47 | The initial interior point is strictly positive | Min-shift lemma; counterexample to the comment. | proved | the code comment 'all >= 1' is refuted (C47_not_all_ge_one) |
| C48 | Step lengths keep slacks and multipliers strictly positive | Step-length lemma over EReal; counterexample. | proved | a zero component makes the step undefined (C48_zero_direction) |
| C49 | Each iteration contracts the linear residuals by exactly (1-alpha) | Linearity plus C44. | proved | Q symmetric, LAPACK contract |
| C50 | The solver returns the best visited iterate | Loop invariant. | proved |  |
| C51 | The residual is a certificate | Norm inequalities. | proved |  |
| C52 | Batch elements are solved independently (false), and the affine step length is batch-independent | Counterexample; partial theorem for min(step,1). | partial | false as stated: C52_batch_dependence gives a problem whose result depends on its batch; the predictor's capped step is independent |
| C53 | The backward pass is the gradient of the solution map (symmetric F) | Adjoint identity; concrete counterexample for asymmetric F. | proved | For every differentiable family of problems and interior solutions with fixed products s z: the derivative of any differentiable loss of x is the inner product with the returned gradients minus dh.((F^T-F) dz); equality for symmetric F; for a concrete family with skew-symmetric F the returned gradients pair to 0 while the derivative is -1 (the statement's negation for asymmetric F). |
| C54 | masked_scatter_ update equals elementwise selection | Induction over lists. | proved |  |
| C55 | Solver failure paths | Loop analysis. | proved | includes a concrete problem for which None is returned, and a sufficient condition under which it never is |
| C56 | Impulse forces act only before t=0.1 and forces superpose | List sums. | proved |  |
| C57 | Gravity is mass*g of its own body | Object-store model; partial theorem and counterexample. | partial | false for a Gravity object shared by bodies of different mass (C57_shared_gravity_wrong); proved for one object per body |
| C58 | Recorder numbers frames consecutively and at most one per interval | Invariant. | proved | file writing itself is not modelled, only the sequence of frames |
| C59 | Breakout state vector round-trips | List slicing induction. | proved | Both directions: from_vector of to_vector, and to_vector of from_vector for vectors of the right length. |
| C60 | Breakout block scan | Loop model with fuel; invariant over the cleared prefix of the row. | proved | The statement records two defects of the scan: the first column hides the row, a run on the right edge never ends. |
| C61 | Iterative refinement does not refine | Block algebra. | proved | factor_solve_kkt_reg solves the regularised system; a sweep turns the residual R into 2R - eps (dx, ds, 0, 0); for Q, D >= lam I and monotone F the residual after n sweeps is at least (1 + lam/(lam+eps))^n times the first one; the opposite sign would contract by eps/(lam+eps); no factorisation raises; concrete witness with eps = 1e-7. |
| C62 | Post-stabilization displacement cancels constraint velocity | Block algebra. | proved | exact LCP solver assumed for the law; C62_post_stab_solvable shows when it can be met; C62_post_stab_idle: post-stabilization reads velocities only, so it never repairs overlap of bodies at rest |
| C63 | LCP utility shapes | Shape-level model. | proved | bdiag is false for proper batches: it succeeds exactly when the batch or the size is one (C63_bdiag, C63_bdiag_batch_raises); extract_batch_size does not notice inconsistent batch sizes. |
| C64 | Separating-axis test is complete and reports the penetration depth | Separating hyperplane for polygons reduced to edge normals via Radon/convexity lemmas. | proved |  |
| C65 | Circle-hull contact reports the exact penetration depth; NaN for special interior centres | Distance to edges for interior points; concrete NaN witness. | proved | penetration exact whenever the normal is finite; C65_concentric_nan shows the NaN case |
| C66 | Overlapping rectangles always get a contact at the exact depth | Rectangle frame; the incident edge meets the clip slab. | proved | diagonals shorter than 10^10, the initial value of the code's running maximum |
| C67 | Overlapping general hulls can get no contact | Concrete witness evaluated through the specification of the separation test. | proved | concrete bodies; overlap is robust (every displacement up to 1/20) |
| C68 | Breakout action choice | Case split. | proved |  |
| C69 | Breakout ball search | Search over the reading order; argmin characterised on ranges. | proved | The degenerate radius at the border is part of the statement. |
| C70 | The library's solver certifies the contact law up to its residual | Residual of the best iterate bounds each row of the KKT system; rows read as contact law. | proved | Batch of one, as the engine calls it. The residual is the one the solver itself minimises (pdipm.py:93-97). |
| C71 | Frictionless simulations with the library's solver return | Monotonicity of the frictionless LCP makes every factorisation regular; trees give independent constraint rows. | proved | LAPACK contract BtrifactOk (shown satisfiable). With friction the LCP matrix is not monotone (C71_friction_form) and returning is not claimed; post_stabilization returns for every friction. |
| C72 | Physics of approximate solutions | Power estimates; induction over runs. | proved | C72_constraint_drift is for worlds without post-stabilization, which moves bodies on purpose. |
| C73 | A step raises only what its parts raise | Case analysis of the loop. | proved |  |
| C74 | The contact problem is solvable exactly when it is feasible | Farkas lemma and projection onto a closed convex set give the KKT point of the frictionless problem; with friction, a zero of an outward pointing regularised force field (no retraction onto the sphere, proved here by the Milnor-Rogers volume argument) and a limit along a recurring active set; explicit infeasible world. | proved | Feasibility is necessary with or without friction (C74_feasible_necessary). With friction existence is proved under cone feasibility (C74_friction_solvable, C74_friction_inelastic, C74_friction_separable, C74_circles_solvable); a problem that is feasible but not cone feasible is not decided. The Exact contract of C38-C43 is met by the solver exactLcp, which returns whenever a solution exists (C74_exact_engine_returns). |
| C75 | numerical_backward and the gradient | The claim that the gradient is approximated is refuted; memory model of the view, then calculus. | proved | The intended reading (approximates the gradient) is false and refuted by C75_not_the_gradient and C75_half_gradient. Indexing a tensor is taken to give a view, as in PyTorch 0.4 and later. |
| C78 | Impacts are local | Test the momentum balance with velocities supported on the group; monotonicity for uniqueness. | proved | Velocities only: halving of the time step is global, so positions of separate groups are coupled through the step size. |
| C76 | The simulated Breakout world | Invariant along plays; island energy and impulse formulas. | proved | Exact reals; drawing is not modelled. The ball must have positive radius; the contact search must respect the exclusion sets (the library's does). |
| C79 | Contacts never turn a circle without friction | Central contact arms; momentum balance tested with a unit spin; induction over runs. | proved | Circle against circle and circle against hull; torque-free forces on the circle assumed for runs. |
| C80 | Single contact: textbook impulse | Momentum balance per body; scalar complementarity problem. | proved | Contacts of either body with further bodies are excluded by hypothesis. |
| C77 | Breakout paddle search and the path from frame to world | argmax/argmin characterised on ranges; a scan that ends has found proper rectangles; kernel vector of the system matrix. | proved | A frame is its first colour channel. That the paddle is always found is false: C77_ball_taken_for_paddle. |
| C81 | The ODE contact handler and the differentiable one agree on circles | Model of the handler's loop with ode.collide as an input; ODE's sphere collision as a specification. | proved | ode.collide on spheres is specified (Spec/Ode.lean), not modelled; boxes are covered only by C81_loop. |
| C82 | The frictionless motion does not depend on solver, contact order or mass unit | Energy argument for uniqueness of the impact across two descriptions; simulation relation through the step loop. | proved | Both runs are assumed to return. With friction the outcome is not unique (C43), so the claim is false there. Independence of pair order is proved for circles. |
| C83 | Bodies are uniform laminae | Integral of quadratic functions over a convex polygon as an edge sum: induction cutting off a triangle, affine change of variables; polar coordinates for the disc. | proved | Convex hulls without three collinear vertices; the claim for arbitrary accepted polygons is false (C83_nonconvex_inertia_wrong). |
| C84 | Contacts and whole runs do not depend on where the scene is | Equivariance of each routine of the contact search; bisimulation of the step loop. The broad phase is an oracle, assumed to report the same pairs (proved for bounding boxes without turn). | proved | The broad phase is an oracle assumed to report the same pairs for the moved bodies; C84_boxes_seen proves this for bounding boxes in frames without turn. |
| C85 | Galilean invariance | Transport of the law by virtual power, uniqueness of the frictionless impact (C82), simulation relation through the step loop. | proved | Runs: free bodies without friction (with friction outcomes are not unique, C43). Joints fixed to the world single out a frame, so they are excluded. |
| C86 | Strict stepping keeps bodies out of each other | From the closest-point and separating-axis theorems: a contact-free pair has a separating line up to tol. Hull against hull that are not both rectangles is excluded: C67 shows missed collisions. | proved | Post-stabilization off (with it the claim is false, C20). Two hulls that are not both rectangles are excluded (C67). |
| C87 | The ball stays in the Breakout court | Invariant from C86 and the places of the scenery; a ball that moves less than a wall's thickness cannot pass it. | proved | Exact solver; the broad phase reports every pair of overlapping bounding boxes. Below the end of the left wall (row 189) nothing is claimed. |
| C88 | A drawn screen is read as drawn | Induction over runs and rows with the exact erased frame; the ball is the only red left. | proved | A frame is its red channel, the only one read. The claim without the condition on line 57 is false (C88_ball_read_as_block). |
| C89 | simulate_breakout returns the state of the world it stepped | Exact characterisation of the call, then invariants of the fixed step. | proved | The attributes pos and rot, stale until the next set_p, are not modelled separately from p. |
| C90 | What the controller's model predicts | Free steps are exact by the isolated-body theorem; induction over the action list; the bounce case compares both runs. | proved | One state per batch. Exact LCP solver. The last clause (the prediction forgets bounces) is C90_bounce_forgotten. |
| C91 | The controller's cost is the tracking cost | Sum over the matrix entries as successive assignments to a diagonal matrix. | proved | The MPC solver that minimises this cost is not modelled. |
| C92 | The paddle speed is identifiable from a contact-free game | Closed form of the states by induction, then algebra of the mean squared error. | proved | Gradient descent on the loss is not modelled; the loss is shown to be a quadratic with the true speed as its only zero. |
| C93 | The engine never raises in the Breakout game | The constraint graph is a forest held to the world; invariance of statics; totality of the solver on frictionless problems (C71). | proved | LAPACK by contract. A ball of radius 0 is excluded (C77). |
| C94 | The contact search returns on all circles and rectangles | Rectangles' support functions and separation bounds; perpendicular clip planes; GJK termination (C65, C16). | proved | Hulls that are not rectangles can make the search fail: C65, C67. In exact arithmetic. |
| C95 | Before the impact the mass-inference experiment is blind to the mass | Rest is the only solution of the contact-free law for a chain hanging vertically (its joint anchors lie below each other, so gravity does no work on any admissible motion); exclusions and bounding boxes rule out contacts; stabilisation displacement is zero. | proved | Exact arithmetic: the impulse acts in exactly three steps (t = 0, 1/30, 2/30 < 0.1). After the impact nothing is claimed. RMSprop is not modelled. |
| C96 | An isolated scene obeys the conservation laws along whole runs | Virtual-power form of the contact law tested with rigid motions (C40-C42), also for the stabilization problem; induction over runs, totals over the bodies' own poses and velocities. | proved | LCP solver by the contract Exact. Angular momentum is claimed for bodies without joints: the anchors of a rotating joint separate at second order (a revolute joint holds velocities, not positions). |
| C97 | Outcome of one frictional contact of a round body, in closed form | Momentum balance of the single body tested against the three virtual motions, scalar Coulomb law solved by cases. | proved | Law level: about the ContactLaw that C38 gives for every exact engine step; instance in Props/Rolling.lean. |
| C98 | A ball sliding on a level floor ends up rolling, with two thirds of its speed | C16 (exact circle-hull contact) and C94 (search total) give the one contact at penetration 0; C97 gives the step; induction with a clamp composition law; existence by C74. | proved | post_stab off, LCP solver by the contract Exact, broad phase presents the pair once. Exact arithmetic: the ball starts exactly on the floor. |
| C99 | Statics: a scene rests if and only if forces can balance it; a stack of bricks stands exactly when it should | Farkas' lemma turns virtual work into balancing forces; energy argument for rest; exact manifold of two level boxes (both ends of the overlap); telescoping of the moments over the interfaces; tipping motion as the witness of instability; harmonic stack. | proved | LCP solver by the contract Exact. The criterion for falling assumes bricks thicker than the contact distance eps (otherwise bricks that do not touch get contacts too). Exact arithmetic: bricks touch exactly. |
| C100 | A box on an inclined plane obeys Coulomb's law: it stays, slides, brakes or tips exactly when it should | Frame invariance of the hull-hull contact reduces the tilted pair to a level one; impulses of all contacts summed into one normal force, one friction force and one moment; the moment bounded by the extent of the base; induction over steps. | proved | post_stab off, LCP solver by the contract Exact. Exact arithmetic: the box starts exactly on the plane. When a box tips, only the first step of tipping is described. |
| C101 | Gradients through frictional contacts are multiplied by the transposed Jacobian | Adjoint of the Newton system; the response of velocities to a small impulse as specification; closed form for one contact; existence of solution curves through every interior solution. | proved | The negation of the naive property (gradients are right with friction) with its exact reason. C101_transposed: for every solution curve in p alone, the returned dp for loss gradient delta equals the derivative of x in direction delta. C101_curve_exists: such curves exist through every interior solution. C101_response_closed: closed form for a body in one contact. C101_wrong_gradient/C101_spurious_gradient: the two errors; instantiated for the ball sliding on a floor of C98. C101_exact_load: the exact law for comparison. |
| C102 | Strict stepping ends when contacts are real overlaps; for general hulls contacts can be phantoms and a strict run stands still for ever | Depth of overlap as a lower bound over separating translations; separation of convex sets by a line; Lipschitz bound of the motion in the step length; halving argument; explicit triangles for the negation. | proved | Measured pairs are circle-circle, circle-hull and box-box; for two general hulls the property is false as stated and its negation is proved (C102_phantom_contact, C102_phantom_refused, C102_phantom_wall). C102_strict_ends: a bound on the halvings exists; C102_strict_step: the explicit bound and the least advance. The engine enters only through the velocities it returns. |
| C103 | A ball bouncing off a floor: the positions are right, their derivatives with respect to the start are not | The run is reduced to an inductive description of the step times (Track); off the dyadic grid all comparisons are strict, so the times are locally constant in the start; circle-hull exactness (C16) gives the contacts at every height; C97 gives the reversal; existence by C74 and C35. | proved | Exact arithmetic, LCP solver by the contract Exact, strict_no_penetration=True (default), post_stab off, no gravity, ball without spin moving straight down. The derivative is that of the function the program computes (which correct reverse-mode differentiation returns); C101 treats the backward pass itself. The naive property (gradients of the simulation approximate gradients of the motion) is false; its negation is C103_height_gradient with a concrete run. |
| C104 | A step that is cut short applies the forces of the whole step | The contact law restricted to one body; the accepted halving from the loop of step_dt; induction over steps and sub-steps; for the drop the heights, speeds and step lengths as a table checked against the law of one step. | proved | Exact arithmetic, LCP solver by the contract Exact, post_stab off (post-stabilization moves bodies in addition). Constant weight in C104_energy, C104_run and C104_fixed_step; any force in C104_step. C104_bounces_higher is one scene up to the sizes and masses that do not matter. The naive property (speed gained = acceleration times time passed) is false; the theorems give the exact law and when it holds. |
| C105 | A body turning on a frictionless pivot slows down, stops, and comes off the pivot | The contact law tested with rotations about the pivot; rigid anchors (C28) for the arm; the recursion is analysed by monotone convergence and a potential function; runs exist by C35 and C71. | proved | Exact arithmetic, LCP solver by the contract Exact, post_stab off. One revolute joint to the world (a Joint with body2 None); joints between two bodies are not covered. The naive property (a frictionless pivot conserves the energy of the body it holds) is false; C105_stops and C105_spinner prove the opposite for all bodies pinned off their centre. |
| C106 | Two bodies fixed to each other drift apart without bound when they turn | The contact law tested with rigid motions of the pair; the recursion for the square of the distance gives R(n)^2 >= R(0)^2*(1+2*n*(w1*dt)^2) by the conserved angular momentum; runs exist by C35 and C71. | proved | Exact arithmetic, LCP solver by the contract Exact, post_stab off. The two bodies are held by nothing else and touch nothing. The naive property (bodies fixed to each other keep their distance) is false; C106_separates gives the exact growth, C106_apart and C106_spinner the limits. |
| C107 | A row of touching balls is hit like one rigid body: Newton's cradle is not reproduced | The contact law tested with motions along the row gives a tridiagonal complementarity problem; summation by parts proves its solution unique, and the impact on one body is a solution; the contacts of a row are its gaps up to eps; existence by C74 and C27. | proved | Exact arithmetic, LCP solver by the contract Exact, post_stab off, strict_no_penetration=True, one restitution for all balls, the other balls of the row at a common speed. The naive property (a row of equal elastic balls passes the impact on to its last ball) is false; C107_cradle proves what happens instead. |
| C108 | The simulation does not depend on the units of length and time, as long as bodies stay below the built-in constant 1e10 | Scaling lemmas for every routine of the contact search including the loop that finds the nearest point of a hull; the laws of a step (C38) and of post-stabilization rescaled by power; uniqueness of velocities without friction; induction over the halvings and steps. | proved | Exact arithmetic, LCP solver by the contract Exact. The run theorems need bodies without friction (with friction the velocities need not be unique: C108_law and C108_post_law still carry every solution over). The broad phase is an oracle that must not depend on the units. C108_sizes_matter proves that the bound on the sizes is needed. The default values of eps, tol and dt (utils.py) are dimensional too; here they are scaled with the scene. |
| C109 | A scene that falls freely behaves as if there were no gravity, and falls by whole steps even when steps are cut short | The law of impact in a frame that gains a velocity during the step; uniqueness of velocities without friction (C82); the frame changes its velocity between the solve and the move, then the Galilean lemmas (C85) carry over the search, the halvings and the post-stabilization; induction over steps with the frame in closed form. | proved | Exact arithmetic, LCP solver by the contract Exact, no joints (a joint to the world does feel gravity), frictionless for the runs (C109_law covers friction). The broad phase must not depend on the frame. |
| C110 | With one contact the solver stops in the wrong place for heavy or light bodies, and pushes apart bodies at rest | The Newton system of a one-row problem is eliminated by hand (C44), which gives scalar formulas for both directions, step lengths and residuals; scalar inequalities for the blow-up; C50 for which iterate is returned; C45 and C48 so that no factorisation or step fails. | proved | Exact arithmetic; the bounds of (1) and (2) are sufficient, not sharp. The naive property (the solver returns a solution of a solvable monotone problem with one inequality up to eps) is false; C110_heavy_stall, C110_light_stall and C110_touching give the exact results. solve_dynamics has four rows per contact, so only post_stabilization is reached by these theorems. |
| C111 | Why post-stabilisation applies one half of its displacement: the half, and only the half, removes the second order of the drift | Both solves of the step tested with rigid motions about the pivot (or of the pair); Taylor bounds for sine and cosine give the order for every factor; the loss of spin per step bounds the sum of the third (fourth) powers by telescoping; existence by C35 and C71. | proved | Exact arithmetic, LCP solver by the contract Exact, post_stab on. The bodies touch nothing (with contacts the two solves of a step are C38 and C62). C111_factor varies the factor in the formula for the drift that C111_step and C111_without derive from the engine for the factors 1/2 and 0; other factors are not in the code. Forces enter C111_step; the sums over many steps are for bodies without forces. |
| C112 | Without forces velocities can only change so much: the energies of all velocity changes of a run have a bounded sum | Energy balance of the contact law (C42) kept as an inequality with K(v'-v), telescoped over the run; sums of non-negative terms; Cauchy's inequality for the energy of the common motion; the law tested with v'-v for the states that do not change. | proved | Exact arithmetic, LCP solver by the contract Exact. With friction and restitution together energy can be created (C42_friction_can_create_energy), so that case is excluded; C112_still covers friction and any restitutions. With joints and restitution the constraint velocities of the old state would enter the balance, so (2) is for free bodies. |
| C113 | The order of the two bodies of a pair does not matter, except in a tie of two hulls, where it decides the contact normal | Case analysis of the handler; the flip of the circle-hull branch and the reference flag of the hull-hull branch exchange the roles; contact power, slip and normal velocity are invariant under the exchange; the tie is computed in exact arithmetic. | proved | Exact arithmetic. The naive property (the order of a pair never matters) is false: C113_tie, C113_tie_motion. C113_scene is for pairs with a circle; for two hulls C113_hull_contacts is per pair, because the hidden start edge differs after an early exit of the first test (it cannot change separations, C17). |
| C114 | Left and right, and the order in which the bodies are listed, do not matter | Velocities of the image are read in the original (momenta, forces, constraint and normal velocities correspond); both laws tested with the difference of the two outcomes leave no kinetic energy for the difference; search, halvings, moves and stabilisation carried over in lockstep. | proved | Exact arithmetic, LCP solver by the contract Exact. Circles only: a tie of two hulls is decided by the order of the pair (C113), and hull contacts between aligned faces depend on the start edge. Without friction, because with friction the outcome of an impact need not be unique. The theorem compares two runs that return; existence in the examples by C74. |
| C115 | The demo scenes start, what is fixed stays, and the clock shows the time | Scenes as lists of constructor calls; upright boxes with margins show that all pairs not excluded are apart, so the (total) search finds nothing; joint rows independent because each joint holds a new body; a watched search that stops the program when the body is touched, whose runs are runs of the program, and a balance test with a virtual velocity of that body alone. | proved | Exact arithmetic. Scenes without drawing and recording. (1) needs no solver. (2), (3): LCP solver by the contract Exact; (3) is about runs in which nothing touches the body, expressed by a contact search that stops the program when it does; no theorem says that the balls of the demos never reach the clock. Whether every later step of a demo returns is not proved (with friction and joints the LCP need not be solvable; strict mode need not terminate, C22). |
| C116 | The seven KKT solvers of the development version: which agree, which are opposite, and two errors that cancel | Each variant as one linear system in the stacked unknowns; regularity of the whole matrix from that of H and of the Schur complement and conversely; the sweeps are affine maps; runs compared by induction on the passes; positivity of slacks and multipliers for the return. | proved | Exact arithmetic. The file fails on import (line 11); modelled with binverse the matrix inverse, one batch element. SP_IR_INVERSE always raises (bmm of a csc_matrix) and is modelled so; no theorem is about it. The naive properties (all variants compute the same step; refinement refines) are false: C116_opposite, C116_dense_misses, C61. |
| C117 | Free flight of circle scenes, and the gradient descent of demos/grad_demo.py: it stops where the push misses, cannot go far, and prints an outdated result | Induction over the steps with the poses and velocities of free flight; the circle handler returns nothing for separated circles; finite intersections of open conditions for the local constancy; geometric sum of the rates; the run after the push equals the run without forces, to which C96 applies. | proved | Exact arithmetic (the push lasts three steps; DT = 1/30). (2) needs no solver contract, except that the target stays (Exact). What backward returns is a parameter; its contract Differentiates is used only where the distance is differentiable in every direction. Nothing is proved about the gradient at pushes that hit, nor that runs with an impact return. The naive property (the printed distance is that of the learned push) is false: C117_printed_stale. |
| C118 | The learning loops of inference.py and learn_params.py: steps do not depend on the size of the gradient, the mass can become negative, and the learner can stop at a wrong speed | The root of the mean square is at least a tenth of the gradient; closed form of the first step; induction over the iterations with the histories as invariant; C95 for the run before the impact; C92 for the states of a game; explicit cycle and explicit two-iteration run. | proved | Exact arithmetic. RMSprop is not in the repository; its update is modelled from its documentation. Random numbers and gradients are parameters; in C118_blind the gradient is the derivative where there is one. Every run starts from the same state of the random generator of the contact search. Nothing is proved about the gradient of the loss after the impact. (3) is for games without contacts; screens are given, gym is not modelled. |
| C119 | The clock in double precision | Doubles as m 2^e with 53 bits; rounding to nearest is monotone and fixes doubles; standard relative error bound and Sterbenz' lemma; induction over the steps; the demo counts by computing the clock in integer multiples of 2^-57 inside the kernel (clockGo) and monotonicity. | proved | Only the clock is rounded; positions and velocities stay exact in the other properties. Steps are taken as not cut in (1)-(3). Overflow is left out (no largest exponent). The loop condition of `step(fixed_dt=True)` at times below one step is only treated for the first step taken whole. |
| C120 | The game loop of run_breakout: what is counted, which actions are sent, the measured velocity, and when it returns | The game is run with a log of its moves; an invariant of the loop says that the log ends with the two screens of prev_s and s and that rew is the sum over the chosen moves; induction over the passes and the episodes; C88 for drawn screens. | proved | Exact arithmetic. The gym environment, the controller and the random numbers are parameters; printing, rendering, recording and KeyboardInterrupt are left out. At most 10^10 passes per episode, as in the code. The naive property (the average is that of the points earned) is false: C120_reward_lost. The cost of the controller is that of C68; the mpc package itself is not modelled. |
| C121 | The contact search never fails on circles and convex hulls; whole runs of smooth convex hulls return; the scenes of tests/test_hull.py | The centroid of a convex polygon is interior, so each edge is at positive distance and some edge bounds the separation; for a convex polygon the edge of least normal component is not parallel; C15/C49 for GJK; C71 for the runs; for the scenes a separating edge per pair, with rational bounds for the square root of two and the sine of pi/32. | proved | Exact arithmetic. The whole-run result is for frictionless bodies and strict_no_pen off (the tests run with friction and strict_no_pen on, so only their starts and searches are covered). The broad phase is any function that returns pairs of distinct indices. Drawing and recording are left out. |
| C122 | Bodies in double precision: poses, vertices, broad phase, undone steps | Relative error of a rounded product and sum; error of a rounded rotation by 11*2^-53 of the length; Lipschitz bound of rotations in the angle; induction with the recurrence R+e' <= (R+e)(1+k)+h; for the broad phase an exact body with the same poses (C09); for (5) 2 is strictly nearer than 2 - 2^-52. | proved | Only move, set_p and rotate_verts are rounded; the vertices and poses given to the constructors are taken as they are. Overflow is left out. A matrix product is two rounded products and a rounded sum; a fused multiply-add, which some libraries use, is not covered. The naive property that undone steps leave no trace is false: C122_undo. |
| C123 | Strict worlds of circles in double precision: every step returns, and nothing overlaps beyond rounding | Error of a rounded root of a rounded sum of squares; the broad phase presents every overlapping pair (C09); circles put back are exactly the circles they were, so the loop is a search over the halved lengths; monotone rounding bounds the k-th length by 2^(m-k) units of the smallest number; a displacement below a quarter of the spacing is lost. | proved | Circles only, no post-stabilization. The velocities come from outside and are real numbers: the engine, and a NaN it may return for concentric circles, are not part of this model. Overflow is left out. The norm is a rounded root of a rounded sum of rounded squares; a scaled or fused computation is not covered. Exact arithmetic gives the contrast: C123_pressed. |
| C124 | With shorter steps the simulation approaches Newton's motion, to first order, until a contact; at a contact it does not | Mean value inequality for each coordinate of the motion; induction over the steps; the distance of two circles changes at most by the sum of the errors of four coordinates, so the search stays silent (C117); for the bounce the track of C103. | proved | Exact arithmetic, no post-stabilization. Forces with jumps (the impulses) are not Lipschitz: for them the velocity is given in closed form instead. The naive property that shorter steps give the right motion also through contacts is false: C124_early. |
| C125 | Joints come apart along a run by an amount of first order in the step length, bounded in terms of the initial world; in the limit of short steps they hold | A chord differs from its tangent by at most half the square of the angle; the gap g satisfies g' <= (1+(d Omega)^2/2) g + (d Omega)^2/2 R + d eps, summed with an exponential; Cauchy-Schwarz for the mass matrix and the energy balance of C42 bound the speeds. | proved | Exact arithmetic, no post-stabilization. The bound in initial data is for contacts without restitution (bounces can feed energy, C42). That joints do part is C105 and C106: the rate of first order is the true one. The double pendulum's bodies ignore each other's touch, as in the library's own chains. |
| C126 | With shorter steps a body on a pivot follows the pendulum equation, to first order | C105's closed form of a step gives the recursion; the loss is at most k w^3 h^2/2; error recursion with Gronwall; Picard-Lindeloef for the existence; C125 for the distance of the centre from the circle. | proved | Exact arithmetic, exact solver, no post-stabilization; constant forces (gravity). The body must start moving about the pivot (with another initial velocity the first step projects it, C105). The pivot does not stay on the body: see C125 and C105. |
| C127 | Constraints in double precision: the anchor of a joint keeps its distance for ever, and turns with the body up to the rounding of the angles; undone steps leave no trace | Moving, setting back and moving again is by cases the same as moving once; both angles get the same rounded increment, so only the roundings of the two sums differ; relative error of a rounded product; error of a rounded norm (C123). | proved | Velocities come from outside and are real numbers; post-stabilization is off; overflow is left out. That an accepted length exists is not part of this (C123 for circles). |
| C128 | A ball bouncing under its weight: the quantity the method conserves, what cut steps add to it, and when the ball comes to rest | The step law of C103/C104 gives a recursion in height and speed; M is checked by algebra; a second invariant (how deep the ball can get from here without a new fall) excludes cuts; for (5) the speed less a multiple of M grows by g h in every step as long as M is above its limit. | proved | Exact arithmetic, exact solver, no post-stabilization, a ball that falls straight down without spin. (1)-(3) assume steps in which the ball moves by less than its radius. That a fast ball keeps gaining for ever is not proved, only that it never loses with e = 1. |
| C129 | Two free discs: at most one impact, short steps miss no hit, near misses count as hits, fast discs pass through each other | Search among two circles gives at most one contact; impulse of C80; once q.v >= 0 it stays so in free flight, so no second impact and no cut step; Lagrange's identity for the distance of closest approach. | proved | Exact arithmetic, exact solver, no post-stabilization, frictionless discs. The broad phase presents the pair at most once, as ODE's spaces do. With friction discs begin to spin (C43, C80 for the single impact). |
| C130 | The clock of a strict world of discs keeps running: shortened steps do not add up to a finite time, if eps + tol > 0 | A refused attempt brings a pair that was farther apart than eps nearer by more than eps + tol, so 2 V d > eps + tol; the energy bound of C125 makes V grow at most linearly in the number of steps, and the harmonic series diverges. For (5) the clock stays a binary fraction, below the time of meeting. | proved | Exact arithmetic, exact solver, no post-stabilization, discs without restitution: with restitution a step can hang (C27_strict_can_hang), and hulls can stall at phantom walls (C102). Rounding is not considered: in floating point halving ends at some point. |
| C131 | Masses and restitution from a collision of two discs: the loss has one minimum, only the ratio of the masses can be learnt, gradient descent finds it | The number of halvings is decided by positions and velocities before the impact, which do not depend on the masses; after the impact no step is cut; so the difference of the positions is the difference of the shares times a common vector. | proved | Exact arithmetic, exact solver, no post-stabilization, frictionless discs; the experiment's own scene is a chain of rectangles (C95, C118), to which this does not apply. The descent of (5) is plain gradient descent with the exact derivative, not the RMSprop of the experiment. |
| C132 | Worlds of discs that allow penetration: how deep discs can get, and that what has sunk in stays in and slows the world down | The world has the same engine answer as the strict one that tolerates the present depth, so the estimate of a refused attempt (C130) bounds what an attempt of dt/8 can do; energy bound of C125; for (4) the impulse of C129 with e = 0 leaves no relative velocity. | proved | Exact arithmetic, exact solver, no post-stabilization (what it does to positions is a matter of its own, see the properties on post_stabilization). (1) and (2) need contacts that do not approach, i.e. zero restitution; the depth must be less than the sum of any two radii, since coinciding centres give a normal that is not a number. |
| C133 | A wheel on a floor, pulled and driven: when it rolls, when it spins, and how fast it gets | C97 gives the outcome of one contact with friction in closed form; the free motion now includes pull and torque; the slip obeys a one-dimensional recursion s' = s + A dt - clamp(s + A dt). | proved | Exact arithmetic, exact solver, no post-stabilization, level rectangular floor below the ball; a slope is represented by the direction of the force. Rolling on other shapes, and wheels with several contacts, are not covered. |
| C134 | The contact of two circles in double precision | error analysis of each operation: difference, norm (C123), quotient, half penetration, arm, product. | proved | Circles against circles only; overflow is left out, as in C123, and a norm computed with scaling or fused operations would be covered only as far as its result is that of the plain formula. Between 2^-538 and 2^-470 nothing is claimed about the direction. |
| C135 | Free flight in double precision, engine included | error of a product with a rounded reciprocal; sums of errors over the steps; the strict loop of C123 accepts at once when there is no pair. | proved | Bodies without constraints and contacts; the inverse of the diagonal mass matrix is taken to have the rounded reciprocals on the diagonal. The forces are given numbers; their own computation is the subject of C138. Overflow is left out. (5) is stated with bounds on the computed velocities and coordinates. |
| C136 | The recorder in double precision: one frame is lost with the default step length | the recorder's time equals the clock a frame earlier, and two steps of the clock are longer than one step length; the first four times computed for 1/30. | proved | Only the times are modelled: the pictures are not. (3) holds for every rounding to nearest; with ties to even the frame is lost at the fourth step. |
| C137 | How long runs and pushes last in double precision | rounding to the grid between two powers of two; the times of 1/30 binade by binade up to 42 seconds; the loop of C119. | proved | Steps that are not shortened; in a run in which the world shortens steps the times differ. |
| C138 | Forces in double precision | induction over the sum with the error of one addition; (4) from C135. | proved | The values of the force functions are given numbers; the functions of forces.py return constants. In (2) the gravity objects attached to the body must have been attached to it last (C56 shows what happens to shared ones). |
| C139 | A body without forces in double precision settles to a velocity | the computed step is monotone in the velocity; the rounded reciprocal times the mass is less than one and half a unit in the last place, so powers of two do not rise; a bounded monotone sequence of multiples of 2^-1074 is finally constant. | proved | For nonnegative components; the computation is that of C135. How long it takes to settle is not bounded here. |
| C140 | Moments of inertia in double precision | each computed quantity lies between (1-w)^k and (1+w)^k times the true one, with k the number of roundings; products add the exponents and lower bounds exclude underflow. | proved | Circles and rectangles; for hulls see C141. |
| C141 | The moment of inertia of a hull in double precision | the sums rounded after every term lie between (1-w)^k and (1+w)^k times the true sums of the computed terms; in the quotient the sum of the weights cancels; Bernoulli's inequality bounds the powers. Without rounding the model is that of C07 and C83. | proved | In (3) the cross products must be zero or of usual size as computed. In (4) the program may stop before: the order of so small vertices is checked with products that can underflow as well. |
| C142 | The test for the order of the vertices in double precision | the error of a term is at most 13*2^-53*R^2, the error of a sum that of its terms and a unit of the size of the sum; induction on the edges. For (2) a rounded difference is at most twice the true one and the products underflow. | proved | Without rounding the test is that of the model; here the vertices are given double precision numbers. Overflow is left out. |

## Findings about the code

Behaviour that the proofs brought to light; the property that records it in brackets.

Stepping and constraints
1. The roll-back of a rejected step restores `rot1` of a joint but not `rot2` (C22).
2. A strict world can halve its step for ever (C26, C27).
3. A strict world with post-stabilisation can end a step penetrating: the test is made before the correction (C20).
4. `post_stabilization` reads velocities only; it corrects velocity drift, never position drift (C62).
5. Sharing one `Gravity` object between bodies of different mass overwrites the force (C57).
6. Mixed restitution coefficients can make the contact problem infeasible, even without friction (C74).
7. Restitution with friction can create energy; friction solutions are not unique (C42, C43).
8. `fric_dirs` other than 2 does not match the tangent directions built (C33).

Contacts
9. The broad phase hides contacts when `eps1 + eps2` is smaller than the world's `eps` (C09).
10. `get_support` raises (`UnboundLocalError`) if all dot products are below -1 (C13).
11. Collinear hull vertices make GJK raise (C15); concentric circles and a centre on a vertex or on a segment between
    vertices give NaN normals (C16, C65, C94).
12. For general hulls contacts can lie off the edge, and collisions can be missed (C19, C67).
13. `test_separations` starts from -1e10 and breaks ties by order (Model/Contacts).
14. The ODE handler reports contacts already at distance `2 eps`, drops all but the first contact (`return` in the
    loop), and differs on concentric circles (C81).
15. Non-convex hulls are accepted but get a moment of inertia that is too small (C83). `Rect` accepts two negative sides.

LCP solver
16. `get_step` divides by 0 and takes the maximum over the whole batch: one sample changes the step of another (C48, C52).
17. The comment in `pdipm.py` that all slacks start at >= 1 is false (C47).
18. `LCPFunction.backward` is wrong for asymmetric `F` (C53), which is the case with friction.
19. `forward` returns `None`s when the first factorisation fails; `max_iter = 0` fails (C55).
20. `solve_kkt_ir` refines with the wrong sign (C61).
21. `bdiag` fails for batches of more than one and size more than one (C63).
22. `numerical_backward` returns half the gradient: it perturbs a view of the tensor it compares with (C75). It also
    imports `collections.Iterable`, which newer Pythons do not have.
23. `dev_pdipm.py` cannot be imported.

Breakout
24. The encoder's block scan never ends for a block at the right edge; a row is missed if a run starts at column 0 (C60).
25. A ball exactly one column left of the paddle on row 189 is taken for the paddle; a ball cut by the border gets
    radius 0, and the first contact-free step then raises (C77).
26. A ball on line 57 is read as a block, and may be reported lost (C88).
27. A square hit on a resting paddle stops the ball (C76).
28. `simulate_breakout` writes `p` with angle 0 past `set_p`: the paddle's vertices stay turned; it raises without
    blocks (C89).
29. The controller's prediction rebuilds the world with the initial ball velocity at every predicted step: bounces
    are forgotten (C90).
30. The controller's cost does not track the ball while it moves up (C91).
31. A step raises when the ball's centre lands exactly on a corner of a block (C93).
32. The right stopper is off the screen (from x = 160), the left one at [0, 8]; an empty row yields a phantom paddle.

Inference
33. Until the projectile arrives the loss does not depend on the mass at all (C95).

Code read but not modelled
34. `lcp_physics/lcp/solvers/dev_pdipm.py` cannot be imported: its line 11 imports `binverse` from
    `lcp_physics.physics.utils`, which defines no such name; no other module imports it.
35. `demos/grad_demo.py` prints as final distance the distance in the last training world (lines 70-79): the
    circle and target of the final world are not the ones read.
36. In `slide_demo` (demos/demo.py:93-115) friction 0.15 exceeds the slope tan(π/32) < 0.1: a box at rest on the plane
    does not slide (C100_slide_demo).
37. `from_vector` (run_breakout.py:63-69) accepts vectors of every length from 4 on: entries that fit no state are read
    as one more block that shares numbers with the ball (C59_any_length, C90_any_length).
38. The gradients that go back through a frictional contact are those of the transposed problem: a learner that asks how the load
    changes the sliding of a body is told "not at all", and one that asks how a sideways push changes the normal velocity gets a
    number different from zero where the answer is zero (C101). Solving with the transposed `F` would repair both.
39. Phantom contacts: the clipping window of a hull-hull contact has the length of the reference edge but is centred at the foot of
    the centroid, and an edge beyond the second clip plane is extrapolated (contacts.py:153-205, 270-292). Disjoint hulls closer
    than `eps` can be reported as deeply penetrating. With `strict_no_penetration` the constructor then refuses a scene without any
    overlap, and a run in which such hulls approach makes ever smaller steps and never passes that moment (C102_phantom_*).
40. Gradients through a bounce are not those of the motion, however small the steps are: the moment of contact is picked from the
    times `dt/2^j` (world.py:95-113) and carries no derivative, so a ball dropped 1 higher ends 1 higher after the bounce instead of
    `e` lower; gradient descent on the final height of a bouncing ball goes the wrong way (C103).
41. A shortened step applies the forces of the whole step: `solve_dynamics(dt)` is called before the halvings and not repeated
    (world.py:83-113). Every body in the world, also one far from the collision, gains the speed of `dt` while the clock advances
    by `dt/2^k`; a ball dropped from 5.25 with restitution 0.9 and default constants bounces to 6.03 (C104).

42. A frictionless pivot brakes: the velocity is projected on the rotation about the pivot at the start of the step and the body
    moved along it, so per step the factor `1 - κ(1 - cos δ)` of the angular velocity remains and every pinned body comes to rest
    without any force; the pivot moves away from where it was put in every step (C105).
43. Bodies fixed to each other come apart: FixedJoint recomputes the offset from the positions after every step, and each step
    multiplies the square of the distance by 1 + (angle turned)^2. A pair that turns without forces ends up farther apart than any
    bound, and stops turning (C106). The squares of demos/fixed_joint_demo.py are such a pair while they tumble.

44. Newton's cradle does not work: a ball that hits a row of balls whose gaps are at most `eps` meets them as one rigid body. With
    n + 1 equal elastic balls the first recoils with (n-1)/(n+1) of its speed and the others leave together, instead of the last
    one alone. The outcome jumps when a gap passes `eps` (C107).

45. Constants with a dimension: test_separations starts its maximum at -1e10 and get_support at -1. Two unit squares at the same place
    collide, but measured in a unit 1e10 times smaller the search raises UnboundLocalError. Below that size, for bodies that contain
    their reference point, simulations do not depend on the units (C108).

46. A freely falling scene keeps the contacts, halvings and clock of the scene without gravity, but each of its steps adds the fall
    velocity of a whole dt: whenever a collision inside the scene shortens a step, the whole scene gets ahead of the law of free fall,
    the bodies that do not collide included (C109, cf. C104).
47. The interior point solver can stop far from the solution. After one bad step three iterations without an improvement of the best
    residual end the run, and the starting point is returned: for one contact of heavy bodies at high speed the multiplier is a
    fraction of what is needed, for light bodies far from contact the contact acts nevertheless. At a contact of unit compliance where
    nothing has to be done, ten iterations leave a multiplier of (49/128)^9: post-stabilization returns a correction of about
    1.8e-4 for bodies at rest, of which step_dt applies dt/2 in every step (C110).
48. `dp /= 2  # XXX Why 1/2 factor?` (world.py:110): the half turns the stabilised step into the trapezoidal rule. It is the only
    factor that leaves a drift of the third order at a pivot, and keeps bodies that are fixed to each other within a bounded
    distance; with none or the whole of the displacement the drift is of the second order. It does not help against the braking of
    rotations, and costs the conservation of angular momentum (C111).
49. When the separations of two hulls are exactly equal, the first body of the pair supplies the reference face
    (`contact2[0] > contact1[0]`), and ODE chooses which body is first: two overlapping squares separate horizontally or obliquely
    depending on that order. In all other cases the order of a pair does not matter (C113).
50. tests/test_demos.py contains no assertion: `testDemo`, `testChain`, `testSlide` and `testFric` pass whenever the run does not
    raise.  `testDemo` makes a second rectangle that is never appended to `bodies`.  C115 states what the scenes do show.
51. lcp/solvers/dev_pdipm.py cannot be imported (`binverse` is defined nowhere). Were it repaired: `IR_INVERSE` and `IR_UNOPT` each
    contain a sign error, and the two errors have the same effect for the default of one refinement sweep (C116_one_sweep), while
    without a sweep the steps are opposite and with more one converges and the other diverges; `SP_IR_UNOPT` factorises with `D` instead of `D_tilde`; `SP_IR_INVERSE` takes `forward`'s tolerance for the
    regularisation and raises in `kkt_resid_reg`; `SP_LU_FULL` and `SP_IR_INVERSE` stack a three-dimensional tensor when there are no
    equalities; batches of more than one problem fail in the shift of the starting point (line 173).
52. demos/grad_demo.py:70-78: the final world is made with the learned force, but the distance printed afterwards is taken between
    `c` and `target` of the last world of the loop, so it belongs to the force before the last correction (C117_printed_stale). The
    descent also has no way out of the pushes that miss: the gradient is exactly zero there and the stop criterion, meant for
    convergence, ends the loop (C117_stalls).

53. experiments/inference.py:21 defines `MASS_EPS` and uses it nowhere: nothing keeps the learned mass positive. The first RMSprop step
    is five units long whatever the gradient, so the mass drawn from [0, 1) becomes about -4.5 if the first gradient is positive
    (C118_first_mass).
54. experiments/breakout/learn_params.py:88 stops when two consecutive losses agree, which also happens when a step jumps to the mirror
    image of the minimum (C118_early_stop). With its constant learning rate the optimiser has a cycle around every parabolic minimum
    (C118_cycle).

55. With doubles the clock of `run_world` is short of 7, 10 and 180 after 210, 300 and 5400 steps of 1/30, so grad_demo, debug_demo,
fric_demo and test_hull make (when no step is cut) one step more than 30 per second; those of 20 and 40 seconds do not (C119_demo_steps,
C119_exact_steps). Step counts in the other properties (210 in C117) are those of exact arithmetic.
56. The clock stops at t = 2^49: a step of 1/30 is lost in rounding and `while world.t < run_time` never ends (C119_stands); in exact
arithmetic it does (C25).

57. run_breakout.py:216-220 leaves the loop before adding the reward of the move that ended the episode, and 187-191, 230-234 drop the
rewards (and the `stop`) of the start moves; the reported average lacks them (C120_average, C120_reward_lost).
58. run_breakout.py:203 with encoder.py's default ball (y = 21000 when none is seen): on the first screen with the ball again its measured
velocity is upwards and above 20000, and the controller's cost ignores ball and paddle for that step (C120_reappears).
59. The defaults of `run_breakout` do not work: `paddle_vel=None` raises (C120_errors).
60. `testAngInertia` of tests/test_hull.py compares without an absolute value, so that a hull whose inertia is too small, for instance zero, passes. The value is in fact exact (C121_test_inertia).
61. A step that is undone leaves a trace: `World.step` restores the poses, but `set_p` turns the vertices back by a rounded rotation, which need not give the old ones (C122_undo). Vertices are never recomputed from the angle, so such errors add up; the bound of C122_drift shows that this is harmless for realistic runs.
62. What keeps a strict world of circles from hanging is rounding: pressed circles at depth `tol` are never accepted in exact arithmetic (C27_strict_can_hang, C123_pressed), while in double precision the halved displacement is finally lost, or the step itself becomes zero, and the step returns (C123_run). The price is time: such a step advances the clock by next to nothing (less than 2^-47 instead of 1 in C123_pressed), so `run_world` may need astronomically many of them.

63. Shorter steps do not make collisions more accurate: bodies bounce as soon as they are within `eps` (0.1) of each other, so with short steps a falling ball never reaches the floor and afterwards is too high by `(1 + e) eps` (C124_early). The impulses of forces.py last for whole steps: with `dt = 0.03` the push of 0.1 lasts 0.12 and the velocity is a fifth too large (C124_impulse).

64. A joint keeps no record of where it was attached to its second body: `pos2` is recomputed from the anchor carried by the first body (constraints.py:43-47), so an error made in one step is never seen again, let alone corrected. What a joint is worth is therefore the sum of the errors of all steps: of first order in the step length and growing with the time and the square of the spin (C125_holds), zero in the limit of short steps (C125_limit), and without any bound for a fixed step length (C106_apart).
65. The scheme loses spin at a pivot in every step but the first (C105), by the factor `1 - k(1 - cos(w h))`. The loss is of second order, so over a fixed time it vanishes with the step length and the motion tends to that of the pendulum equation (C126_converges); for a fixed step length it does not (C105_slows: without a force the body comes to rest).
66. Joints and vertices drift differently in floating point. A joint recomputes its anchor from a stored distance and angle in each step (constraints.py:45), so its distance never drifts (C127_length) and an undone step leaves no trace (C127_step); a hull turns its stored vertices (bodies.py:211-214), so both happen there (C122_drift, C122_undo). A joint at a corner of a hull therefore leaves the corner by the sum of the two bounds.
67. With restitution 1 a dropped ball bounces higher than it was dropped whenever a step on its way was cut (C128_higher; with the default constants and gravity 10: from 0.605 to 0.6605). The amount is the way the cut step did not go. Steps are cut only for balls that come down by more than eps + tol = 0.1 in a step; slower balls keep their energy exactly (C128_slow).
68. Collisions happen at the contact distance, not at contact: two discs that would pass each other with a gap below eps = 0.1 exchange momentum (C129_near_miss). Strict stepping looks only at the ends of a step: a disc that moves by more than the diameter of the zone in a step can pass through another one unnoticed (C129_unseen and the example beside it). Steps with (|v| dt)^2 + b^2 <= (R + eps)^2 miss no hit (C129_hit).
69. eps = 0 and tol = 0 are accepted by the constructor and make run_world loop for ever on two discs that fly at each other: a contact would be seen at one distance only, the steps are halved again and again before it (C130_eps_zero_stands_still). With eps + tol > 0 and no restitution the run always ends (C130_every_time). Since a cut step applies the forces of a whole step, the number of steps is only bounded through the divergence of the harmonic series, not by a multiple of the time.
70. Learning from positions: for two colliding discs the loss of inference.py has no false minimum in the mass (C131_mass), but only the ratio of masses matters (C131_ratio), and for guesses that are much too heavy the derivative is of the order 1/m^2, so that plain gradient descent hardly moves. The time and place of the impact do not depend on the masses (C131_twins); this is why the derivative with respect to a mass is unproblematic, unlike that with respect to the start (C103).
71. A world that is not strict lets a disc sink in, and nothing pushes it out again (no post-stabilization): with zero restitution it keeps its depth for ever (C132_sunk). Every later step of the whole world is then refused three times and lasts an eighth of the step length, at four contact searches each (C132_sinks: a unit disc of speed 120, default constants). Below V dt = 4 (eps + tol) this cannot happen (C132_for_ever).
72. Wheels behave (C133): a driven or pulled wheel rolls exactly up to |a - 2 tau/(m r)| = 3 mu g and beyond that gets mu g from the floor. What the method adds is k dt^2/2 times the acceleration in the distance after k steps, an error of first order in the step length (as in C124).
73. In double precision two circles need not have the same centre for their contact to be a division by zero (C134): the squares of differences below 2^-538 underflow. Above 2^-470 all of the contact is accurate to some units in the last place.
74. The engine multiplies by the inverse of the mass matrix also when no force acts (engines.py:33, 49), so in double precision a free body keeps its velocity exactly only for suitable masses (one, the default, is suitable): with mass 49 a speed of one becomes 1 - 2^-53 (C135_slows). The loss per step is bounded by 5 units of 2^-53.
75. `Recorder.record` compares a difference of accumulated times with the interval (utils.py:67). With the recorder's interval equal to the step length 1/30, as in the commented lines of the demos, rounding makes one of the first four comparisons fail, so the film has one frame fewer than the simulation has steps (C136_thirtieth).
76. `while world.t < run_time` (world.py:266) with accumulated times: the default run of ten seconds makes 301 steps of 1/30 instead of 300, since the 300th time is just below 10 (C137_runs). The impulses of forces.py last three steps only because a tie is rounded to even (C137_impulse).
77. `sum` over the forces (bodies.py:102) adds in the order of attaching: with three forces the order can change the last bits of the total (C138_three), with two it cannot (C138_two).
78. A very small hull is refused although its vertices are in the right order: with coordinates of at most 2^-540 all products in
    `_is_clockwise` are rounded to zero and the assertion in bodies.py:169 fails (C142).

## Where partial results stand

Three properties are false as first stated and keep the status `partial`: C22 (finding 1), C52 (finding 16) and C57
(finding 5). For each, the negation is proved with a concrete witness and the strongest true version as a `_partial`
theorem.

## Trusted base

* Lean 4.33.0's kernel, and Mathlib as installed. Every theorem depends only on `propext`, `Classical.choice`,
  `Quot.sound` (checked with `#print axioms` / vcheck). No axioms of our own, no `sorry`, no `native_decide`/`bv_decide`.
* The reading of the Python code: nothing here executes `/repo`.
* Not modelled: drawing (pygame), torch autograd internals, dtypes/devices/CUDA, floating-point rounding (except of the clock, C119, the bodies, C122, strict worlds of circles, C123, their contacts, C134, free flight, C135, the recorder, C136, running times, C137, forces, C138, moments of inertia, C140 and C141, the order of vertices, C142, and the constraints, C127), ODE's internals, gym and the MPC package used in
  `experiments/breakout`, most of `tests/`. `dev_pdipm.py` is not importable (it imports
  `binverse`, which does not exist); C116 models it with the matrix inverse in that place.
* In batches of more than one problem, an iterate that becomes non-finite in one sample is treated as in a batch of one
  (stated at the definitions in Model/Pdipm).
